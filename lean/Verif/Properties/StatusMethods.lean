import Verif.Model.StatusMethods
import Verif.Properties.Status
/-
C20, for the methods `modular_bitfield` writes.
-/
namespace Dis
open PduStatusRecord

theorem PduStatusRecord.setFieldChecked_of_set {s r : PduStatusRecord} {o w v : Nat} (h : s.setField o w v = .ok r) :
    s.setFieldChecked o w v = (r, .ok ()) ∧ s.withFieldChecked o w v = .ok r := by
  unfold setField at h
  split at h
  · rename_i hv
    cases h
    unfold withFieldChecked setFieldChecked
    rw [if_pos hv]
    exact ⟨rfl, rfl⟩
  · cases h

/-- The setters by other names do what the setters do: for the three indicators all succeed, with the same
record; for the raw two bits they succeed with the same record for a value below 4, and for another the checked
ones return an error and leave the record as it was, where the others panic. -/
theorem C20_generated_setters (s : PduStatusRecord) :
    (∀ v, ∃ r, s.set_tei v = .ok r ∧ s.with_tei v = .ok r ∧ s.set_tei_checked v = (r, .ok ()) ∧
      s.with_tei_checked v = .ok r) ∧
    (∀ v, ∃ r, s.set_lvc v = .ok r ∧ s.with_lvc v = .ok r ∧ s.set_lvc_checked v = (r, .ok ()) ∧
      s.with_lvc_checked v = .ok r) ∧
    (∀ v, ∃ r, s.set_cei v = .ok r ∧ s.with_cei v = .ok r ∧ s.set_cei_checked v = (r, .ok ()) ∧
      s.with_cei_checked v = .ok r) ∧
    (∀ v, v.toNat < 4 → ∃ r, s.set_bit4_5 v = .ok r ∧ s.with_bit4_5 v = .ok r ∧
      s.set_bit4_5_checked v = (r, .ok ()) ∧ s.with_bit4_5_checked v = .ok r) ∧
    (∀ v, 4 ≤ v.toNat → s.set_bit4_5 v = .error .bitfieldOutOfBounds ∧
      s.with_bit4_5 v = .error .bitfieldOutOfBounds ∧
      s.set_bit4_5_checked v = (s, .error .OutOfBounds) ∧ s.with_bit4_5_checked v = .error .OutOfBounds) := by
  obtain ⟨h1, h2, h3, _⟩ := C20_set_get s
  refine ⟨fun v => ?_, fun v => ?_, fun v => ?_, fun v hv => ?_, fun v hv => ?_⟩
  · obtain ⟨r, h, _⟩ := h1 v
    exact ⟨r, h, h, setFieldChecked_of_set h⟩
  · obtain ⟨r, h, _⟩ := h2 v
    exact ⟨r, h, h, setFieldChecked_of_set h⟩
  · obtain ⟨r, h, _⟩ := h3 v
    exact ⟨r, h, h, setFieldChecked_of_set h⟩
  · obtain ⟨r, h, _⟩ := (C20_raw_setter s v).2 hv
    exact ⟨r, h, h, setFieldChecked_of_set h⟩
  · have h := (C20_raw_setter s v).1.mpr hv
    have hn : ¬ v.toNat < 2 ^ 2 := by omega
    refine ⟨h, h, ?_, ?_⟩
    · show (if v.toNat < 2 ^ 2 then _ else _) = _
      rw [if_neg hn]
    · show withFieldChecked s 4 2 v.toNat = _
      unfold withFieldChecked setFieldChecked
      rw [if_neg hn]

/-- No octet has a bit pattern without a variant: the fallible getters return what the others return. -/
theorem C20_generated_getters (s : PduStatusRecord) :
    s.tei_or_err = .ok s.tei ∧ s.lvc_or_err = .ok s.lvc ∧ s.cei_or_err = .ok s.cei ∧
      s.bit4_5_or_err = .ok s.bit4_5 := by
  have key : ∀ (sp : EnumSpec) (n : Nat), n ∈ sp.codes → specifierOrErr sp n = .ok (specifier sp n) := by
    intro sp n h
    have h2 : sp.fromPrimitive n = some ⟨n, h⟩ := dif_pos h
    unfold specifierOrErr specifier EnumSpec.ofCode
    rw [h2]
  have l2 : ∀ o, s.getField o 1 = 0 ∨ s.getField o 1 = 1 := by
    intro o
    have : s.getField o 1 < 2 ^ 1 := Nat.mod_lt _ (by decide)
    omega
  have l4 : ∀ o, s.getField o 2 = 0 ∨ s.getField o 2 = 1 ∨ s.getField o 2 = 2 ∨ s.getField o 2 = 3 := by
    intro o
    have : s.getField o 2 < 2 ^ 2 := Nat.mod_lt _ (by decide)
    omega
  refine ⟨key _ _ ?_, key _ _ ?_, key _ _ ?_, rfl⟩
  · rcases l2 0 with h | h <;> rw [h] <;> decide +kernel
  · rcases l4 1 with h | h | h | h <;> rw [h] <;> decide +kernel
  · rcases l2 3 with h | h <;> rw [h] <;> decide +kernel

/-- A value that does not fit. -/
example : (⟨0x37⟩ : PduStatusRecord).set_bit4_5_checked 4 = (⟨0x37⟩, .error .OutOfBounds) := by decide +kernel

/-- The nine indicators by themselves: an indicator is turned into the octet of its code, which fits its bits; an octet is
turned into the indicator whose code it is, and any other octet is refused, naming it. -/
theorem C20_specifiers : ∀ sb ∈ specifiers,
    (∀ x : EnumVal sb.1, ∃ b : UInt8, x.into_bytes = .ok b ∧ b.toNat = x.code ∧ b.toNat < 2 ^ sb.2) ∧
    (∀ (b : UInt8) (x : EnumVal sb.1), sb.1.from_bytes b = .ok x ↔ x.code = b.toNat) ∧
    (∀ b : UInt8, b.toNat ∉ sb.1.codes ↔ sb.1.from_bytes b = .error (.InvalidBitPattern b.toNat)) := by
  have key : ∀ sb ∈ specifiers, ∀ n ∈ sb.1.codes, n < 2 ^ sb.2 ∧ n < 256 := by decide +kernel
  intro sb hsb
  obtain ⟨s, bits⟩ := sb
  have hk := key _ hsb
  refine ⟨fun x => ?_, fun b x => ?_, fun b => ?_⟩
  · obtain ⟨h1, h2⟩ := hk x.code x.mem
    have h3 : (UInt8.ofNat x.code).toNat = x.code := UInt8.toNat_ofNat_of_lt' h2
    exact ⟨_, rfl, h3, by rw [h3]; exact h1⟩
  · show specifierOrErr s b.toNat = .ok x ↔ _
    unfold specifierOrErr
    by_cases h : b.toNat ∈ s.codes
    · rw [show s.fromPrimitive b.toNat = some ⟨b.toNat, h⟩ from dif_pos h]
      constructor
      · intro e; cases e; rfl
      · intro e
        obtain ⟨c, hc⟩ := x
        dsimp only at e
        subst e
        rfl
    · rw [show s.fromPrimitive b.toNat = none from dif_neg h]
      constructor
      · intro e; cases e
      · intro e; exact absurd (e ▸ x.mem) h
  · show _ ↔ specifierOrErr s b.toNat = _
    unfold specifierOrErr
    by_cases h : b.toNat ∈ s.codes
    · rw [show s.fromPrimitive b.toNat = some ⟨b.toNat, h⟩ from dif_pos h]
      exact ⟨fun e => absurd h e, fun e => by cases e⟩
    · rw [show s.fromPrimitive b.toNat = none from dif_neg h]
      exact ⟨fun _ => rfl, fun _ => h⟩

/-- Three of the indicators have no variant for the pattern 3 of their two bits. -/
theorem C20_specifiers_gaps : ∀ sb ∈ specifiers, ∀ b : UInt8, b.toNat < 2 ^ sb.2 →
    (sb.1.from_bytes b = .error (.InvalidBitPattern b.toNat) ↔
      b = 3 ∧ (sb.1.name = "DetonationTypeIndicator" ∨ sb.1.name = "RadioAttachedIndicator" ∨
        sb.1.name = "IntercomAttachedIndicator")) := by
  have key : ∀ sb ∈ specifiers, ∀ n < 4, n < 2 ^ sb.2 → (n ∉ sb.1.codes ↔
      n = 3 ∧ (sb.1.name = "DetonationTypeIndicator" ∨ sb.1.name = "RadioAttachedIndicator" ∨
        sb.1.name = "IntercomAttachedIndicator")) := by decide +kernel
  have hb : ∀ sb ∈ specifiers, sb.2 ≤ 2 := by decide +kernel
  intro sb hsb b h
  have h4 : b.toNat < 4 := Nat.lt_of_lt_of_le h (Nat.pow_le_pow_right (by decide) (hb sb hsb))
  rw [← (C20_specifiers sb hsb).2.2 b, key sb hsb _ h4 h]
  exact and_congr_left fun _ => (UInt8.toNat_inj (b := 3))

end Dis
