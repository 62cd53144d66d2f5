import Verif.Proofs.RoundTrip
/-
C20 (PDU status record), C34 (flag sets).
-/
namespace Dis
open PduStatusRecord

/-! ### C20 -/

/-- A call of one of the status record's setters. -/
inductive StatusOp where
  | tei (v : TransferredEntityIndicator)
  | lvc (v : LVCIndicator)
  | cei (v : CoupledExtensionIndicator)
  | dti (v : DetonationTypeIndicator)
  | rai (v : RadioAttachedIndicator)
  | iai (v : IntercomAttachedIndicator)
  | fti (v : FireTypeIndicator)
  | ism (v : PduStatusIFFSimulationMode)
  | aii (v : ActiveInterrogationIndicator)

/-- The call. -/
def StatusOp.run : StatusOp → PduStatusRecord → Except Panic PduStatusRecord
  | .tei v, s => s.set_tei v
  | .lvc v, s => s.set_lvc v
  | .cei v, s => s.set_cei v
  | .dti v, s => s.set_dti v
  | .rai v, s => s.set_rai v
  | .iai v, s => s.set_iai v
  | .fti v, s => s.set_fti v
  | .ism v, s => s.set_ism v
  | .aii v, s => s.set_aii v

/-- Specification (IEEE 1278.1 PDU Status record): the bits a setter addresses, with the value it gives
them: TEI bit 0, LVC bits 1-2, CEI bit 3, DTI/RAI/IAI bits 4-5, FTI/ISM bit 4, AII bit 5. -/
def StatusOp.writes : StatusOp → Nat → Option Bool
  | .tei v, 0 => some (v.code.testBit 0)
  | .lvc v, 1 => some (v.code.testBit 0)
  | .lvc v, 2 => some (v.code.testBit 1)
  | .cei v, 3 => some (v.code.testBit 0)
  | .dti v, 4 => some (v.code.testBit 0)
  | .dti v, 5 => some (v.code.testBit 1)
  | .rai v, 4 => some (v.code.testBit 0)
  | .rai v, 5 => some (v.code.testBit 1)
  | .iai v, 4 => some (v.code.testBit 0)
  | .iai v, 5 => some (v.code.testBit 1)
  | .fti v, 4 => some (v.code.testBit 0)
  | .ism v, 4 => some (v.code.testBit 0)
  | .aii v, 5 => some (v.code.testBit 0)
  | _, _ => none

theorem forall_u8 {P : UInt8 → Prop} (h : ∀ n : Fin 256, P (UInt8.ofNat n.val)) (b : UInt8) : P b := by
  have := h ⟨b.toNat, b.toNat_lt⟩
  rwa [UInt8.ofNat_toNat] at this

theorem forall_code {s : EnumSpec} {P : EnumVal s → Prop}
    (h : ∀ c : Fin s.codes.length, P ⟨s.codes[c], List.getElem_mem c.isLt⟩) (v : EnumVal s) : P v := by
  obtain ⟨i, hi, he⟩ := List.mem_iff_getElem.mp v.mem
  have := h ⟨i, hi⟩
  have e : v = ⟨s.codes[i], List.getElem_mem hi⟩ := EnumVal.ext he.symm
  rw [e]
  exact this

/-- The check done for every octet and every variant: no panic, and the eight bits are as specified. -/
def StatusOp.checked (op : StatusOp) (b : UInt8) : Bool :=
  match op.run ⟨b⟩ with
  | .ok r => (List.range 8).all fun i => r.bits.toNat.testBit i == (op.writes i).getD (b.toNat.testBit i)
  | .error _ => false

set_option maxRecDepth 100000 in
theorem StatusOp.all_checked (op : StatusOp) (b : UInt8) : op.checked b = true := by
  cases op <;>
  · rename_i v
    revert b
    apply forall_u8
    revert v
    apply forall_code
    decide +kernel

theorem StatusOp.writes_high (op : StatusOp) {i : Nat} (h : 8 ≤ i) : op.writes i = none := by
  obtain ⟨j, rfl⟩ : ∃ j, i = j + 8 := ⟨i - 8, by omega⟩
  cases op <;> rfl

theorem testBit_u8_high (b : UInt8) {i : Nat} (h : 8 ≤ i) : b.toNat.testBit i = false :=
  Nat.testBit_lt_two_pow (Nat.lt_of_lt_of_le b.toNat_lt (Nat.pow_le_pow_right (by decide) h))

/-- Every setter on every status octet: it does not panic, and every bit of the result is what the
setter gives it or, where it addresses none, what it was. -/
theorem C20_set (op : StatusOp) (s : PduStatusRecord) : ∃ r, op.run s = .ok r ∧
    ∀ i, r.to_u8.toNat.testBit i = (op.writes i).getD (s.to_u8.toNat.testBit i) := by
  have h := op.all_checked s.bits
  unfold StatusOp.checked at h
  split at h
  · rename_i r hr
    refine ⟨r, hr, fun i => ?_⟩
    by_cases hi : i < 8
    · have := List.all_eq_true.mp h i (List.mem_range.mpr hi)
      show r.bits.toNat.testBit i = (op.writes i).getD (s.bits.toNat.testBit i)
      simpa using this
    · rw [op.writes_high (by omega)]
      show r.bits.toNat.testBit i = s.bits.toNat.testBit i
      rw [testBit_u8_high _ (by omega), testBit_u8_high _ (by omega)]
  · cases h

/-- A sequence of setter calls. -/
def runAll : List StatusOp → PduStatusRecord → Except Panic PduStatusRecord
  | [], s => .ok s
  | op :: ops, s =>
    match op.run s with
    | .error e => .error e
    | .ok r => runAll ops r

/-- What the last call in the sequence that addresses bit `i` gives it, if any. -/
def lastWrite (i : Nat) : List StatusOp → Option Bool
  | [] => none
  | op :: ops => (lastWrite i ops).or (op.writes i)

/-- Any sequence of setter calls: no panic, and every bit is as the last call addressing it left it, or
as it was at first. -/
theorem C20_history (ops : List StatusOp) : ∀ s : PduStatusRecord, ∃ r, runAll ops s = .ok r ∧
    ∀ i, r.to_u8.toNat.testBit i = (lastWrite i ops).getD (s.to_u8.toNat.testBit i) := by
  induction ops with
  | nil => exact fun s => ⟨s, rfl, fun _ => rfl⟩
  | cons op ops ih =>
    intro s
    obtain ⟨r, hr, hb⟩ := C20_set op s
    obtain ⟨t, ht, hc⟩ := ih r
    refine ⟨t, by unfold runAll; rw [hr]; exact ht, fun i => ?_⟩
    rw [hc, hb]
    show _ = ((lastWrite i ops).or (op.writes i)).getD _
    cases lastWrite i ops <;> rfl

/-- Every getter reads the bits its setter writes, and no others. -/
theorem C20_get (s : PduStatusRecord) :
    s.tei.code = s.to_u8.toNat % 2 ∧ s.lvc.code = s.to_u8.toNat / 2 % 4 ∧
    s.cei.code = s.to_u8.toNat / 8 % 2 ∧
    s.get_fti.code = s.to_u8.toNat / 16 % 2 ∧ s.get_ism.code = s.to_u8.toNat / 16 % 2 ∧
    s.get_aii.code = s.to_u8.toNat / 32 % 2 ∧
    s.get_dti.code = (if s.to_u8.toNat / 16 % 4 = 3 then 0 else s.to_u8.toNat / 16 % 4) ∧
    s.get_rai.code = (if s.to_u8.toNat / 16 % 4 = 3 then 0 else s.to_u8.toNat / 16 % 4) ∧
    s.get_iai.code = (if s.to_u8.toNat / 16 % 4 = 3 then 0 else s.to_u8.toNat / 16 % 4) := by
  obtain ⟨b⟩ := s
  exact forall_u8 (P := fun b => (⟨b⟩ : PduStatusRecord).tei.code = b.toNat % 2 ∧
    (⟨b⟩ : PduStatusRecord).lvc.code = b.toNat / 2 % 4 ∧
    (⟨b⟩ : PduStatusRecord).cei.code = b.toNat / 8 % 2 ∧
    (⟨b⟩ : PduStatusRecord).get_fti.code = b.toNat / 16 % 2 ∧
    (⟨b⟩ : PduStatusRecord).get_ism.code = b.toNat / 16 % 2 ∧
    (⟨b⟩ : PduStatusRecord).get_aii.code = b.toNat / 32 % 2 ∧
    (⟨b⟩ : PduStatusRecord).get_dti.code = (if b.toNat / 16 % 4 = 3 then 0 else b.toNat / 16 % 4) ∧
    (⟨b⟩ : PduStatusRecord).get_rai.code = (if b.toNat / 16 % 4 = 3 then 0 else b.toNat / 16 % 4) ∧
    (⟨b⟩ : PduStatusRecord).get_iai.code = (if b.toNat / 16 % 4 = 3 then 0 else b.toNat / 16 % 4))
    (by decide +kernel) b

/-- What was set is what is got. -/
theorem C20_set_get (s : PduStatusRecord) :
    (∀ v, ∃ r, s.set_tei v = .ok r ∧ r.tei = v) ∧ (∀ v, ∃ r, s.set_lvc v = .ok r ∧ r.lvc = v) ∧
    (∀ v, ∃ r, s.set_cei v = .ok r ∧ r.cei = v) ∧ (∀ v, ∃ r, s.set_dti v = .ok r ∧ r.get_dti = v) ∧
    (∀ v, ∃ r, s.set_rai v = .ok r ∧ r.get_rai = v) ∧ (∀ v, ∃ r, s.set_iai v = .ok r ∧ r.get_iai = v) ∧
    (∀ v, ∃ r, s.set_fti v = .ok r ∧ r.get_fti = v) ∧ (∀ v, ∃ r, s.set_ism v = .ok r ∧ r.get_ism = v) ∧
    (∀ v, ∃ r, s.set_aii v = .ok r ∧ r.get_aii = v) := by
  have key : ∀ {α : Type} [DecidableEq α] (m : Except Panic PduStatusRecord) (g : PduStatusRecord → α)
      (v : α), (match m with | .ok r => decide (g r = v) | .error _ => false) = true →
      ∃ r, m = .ok r ∧ g r = v := by
    intro α _ m g v h
    cases m with
    | error e => cases h
    | ok r => exact ⟨r, rfl, of_decide_eq_true h⟩
  obtain ⟨b⟩ := s
  refine ⟨fun v => key _ _ _ ?_, fun v => key _ _ _ ?_, fun v => key _ _ _ ?_, fun v => key _ _ _ ?_,
    fun v => key _ _ _ ?_, fun v => key _ _ _ ?_, fun v => key _ _ _ ?_, fun v => key _ _ _ ?_,
    fun v => key _ _ _ ?_⟩ <;>
  · revert b
    apply forall_u8
    revert v
    apply forall_code
    decide +kernel

/-- A raw `set_bit4_5` panics exactly when the value needs more than two bits. -/
theorem C20_raw_setter (s : PduStatusRecord) (v : UInt8) :
    (s.set_bit4_5 v = .error .bitfieldOutOfBounds ↔ 4 ≤ v.toNat) ∧
    (v.toNat < 4 → ∃ r, s.set_bit4_5 v = .ok r ∧ r.bit4_5 = v) := by
  refine ⟨?_, fun h => ?_⟩
  · show (if v.toNat < 2 ^ 2 then _ else _) = _ ↔ _
    split
    · exact Iff.intro (fun h => nomatch h) (fun h => by omega)
    · exact Iff.intro (fun _ => by omega) (fun _ => rfl)
  · have key : ∀ b v : UInt8, (match (⟨b⟩ : PduStatusRecord).set_bit4_5 (v &&& 3) with
        | .ok r => decide (r.bit4_5 = v &&& 3)
        | .error _ => false) = true := by
      intro b v
      have : ∀ n : Fin 4, ∀ b : UInt8, (match (⟨b⟩ : PduStatusRecord).set_bit4_5 (UInt8.ofNat n.val) with
        | .ok r => decide (r.bit4_5 = UInt8.ofNat n.val)
        | .error _ => false) = true := by
        intro n b
        revert b
        apply forall_u8
        revert n
        decide +kernel
      have h3 : (v &&& 3).toNat < 4 := by
        revert v
        apply forall_u8
        decide +kernel
      have := this ⟨(v &&& 3).toNat, h3⟩ b
      rwa [show UInt8.ofNat (v &&& 3).toNat = v &&& 3 from UInt8.ofNat_toNat] at this
    have hv : v &&& 3 = v := by
      have : ∀ v : UInt8, v.toNat < 4 → v &&& 3 = v := forall_u8 (by decide +kernel)
      exact this v h
    have := key s.bits v
    rw [hv] at this
    split at this
    · rename_i r hr
      exact ⟨r, hr, of_decide_eq_true this⟩
    · cases this

/-- The whole of the record's octet is what its five getters (and the two reserved bits) show: two
records on which they agree are equal. -/
theorem C20_getters_determine (s t : PduStatusRecord) (h1 : s.tei = t.tei) (h2 : s.lvc = t.lvc)
    (h3 : s.cei = t.cei) (h4 : s.get_fti = t.get_fti) (h5 : s.get_aii = t.get_aii)
    (h6 : s.to_u8.toNat / 64 = t.to_u8.toNat / 64) : s = t := by
  obtain ⟨s1, s2, s3, s4, _, s5, _⟩ := C20_get s
  obtain ⟨t1, t2, t3, t4, _, t5, _⟩ := C20_get t
  rw [h1] at s1; rw [h2] at s2; rw [h3] at s3; rw [h4] at s4; rw [h5] at s5
  have : s.bits.toNat = t.bits.toNat := by
    show s.to_u8.toNat = t.to_u8.toNat
    omega
  cases s; cases t
  exact congrArg PduStatusRecord.mk (UInt8.toNat_inj.mp this)

/-- Setting the fire type and then the interrogation indicator leaves both, and the rest as it was; a
detonation indicator set afterwards overwrites both. -/
example : runAll [.fti ⟨1, by decide⟩, .aii ⟨1, by decide⟩] ⟨0x86⟩ = .ok ⟨0xB6⟩ ∧
    runAll [.fti ⟨1, by decide⟩, .aii ⟨1, by decide⟩, .dti ⟨2, by decide⟩] ⟨0x86⟩ = .ok ⟨0xA6⟩ := by
  decide +kernel

/-- `from_u8` and `to_u8` are mutually inverse. -/
theorem C20_octet (s : PduStatusRecord) (b : UInt8) : from_u8 s.to_u8 = s ∧ (from_u8 b).to_u8 = b :=
  ⟨rfl, rfl⟩

/-! ### C34 -/

/-- Freeze behaviour as a field, for every combination of bits: one octet is written; read back it is the
same set when every bit present is one of the three flags, the empty set otherwise. -/
theorem C34_freeze (x : FrozenBehavior) (prof : Profile) (buf rest : Bytes) :
    serialize_field x prof buf = .ok ((), buf ++ [x.as_u8]) ∧ field_len x = 1 ∧
    ((∀ i, x.as_u8.toNat.testBit i = true → i ∈ [0, 1, 2]) →
      (deserialize_field : Get FrozenBehavior) prof (x.as_u8 :: rest) = .ok (x, rest)) ∧
    ((∃ i, x.as_u8.toNat.testBit i = true ∧ i ∉ [0, 1, 2]) →
      (deserialize_field : Get FrozenBehavior) prof (x.as_u8 :: rest) = .ok (⟨0⟩, rest)) := by
  have hw : wire x = [x.as_u8] := by
    show [UInt8.ofNat _] = [_]
    congr 1
    show UInt8.ofNat (x.bits.toNat / 256 ^ 0 % 256) = x.bits
    simp
  obtain ⟨f, h1, h2, hr⟩ := FrozenBehavior.reads_any x
  rw [hw] at hr
  refine ⟨by rw [← hw]; exact writes_exact x prof buf, rfl, fun h => ?_, fun ⟨i, hi, hn⟩ => ?_⟩
  · rw [h1 h] at hr; exact hr prof rest
  · rw [h2 (fun h => hn (h i hi))] at hr; exact hr prof rest

/-- Object appearance as a field, for every combination of bits: two octets, most significant first. -/
theorem C34_appearance (x : ObjectStateAppearanceGeneral) (prof : Profile) (buf rest : Bytes) :
    serialize_field x prof buf = .ok ((), buf ++ octets 2 x.as_u16.toNat) ∧ field_len x = 2 ∧
    ((∀ i, x.as_u16.toNat.testBit i = true → i ∈ [0, 8, 10, 11, 12, 13, 14]) →
      (deserialize_field : Get ObjectStateAppearanceGeneral) prof (octets 2 x.as_u16.toNat ++ rest) =
        .ok (x, rest)) ∧
    ((∃ i, x.as_u16.toNat.testBit i = true ∧ i ∉ [0, 8, 10, 11, 12, 13, 14]) →
      (deserialize_field : Get ObjectStateAppearanceGeneral) prof (octets 2 x.as_u16.toNat ++ rest) =
        .ok (⟨0⟩, rest)) := by
  obtain ⟨f, h1, h2, hr⟩ := ObjectStateAppearanceGeneral.reads_any x
  refine ⟨writes_exact x prof buf, rfl, fun h => ?_, fun ⟨i, hi, hn⟩ => ?_⟩
  · rw [h1 h] at hr; exact hr prof rest
  · rw [h2 (fun h => hn (h i hi))] at hr; exact hr prof rest

/-- The constructors from raw bits, for every bit pattern: the set with those bits when all of them are
flags, nothing otherwise; and the raw bits of the set are the ones given. -/
theorem C34_from_bits (a : UInt8) (b : UInt16) (c : UInt32) :
    (FrozenBehavior.from_u8 a = some ⟨a⟩ ∧ (⟨a⟩ : FrozenBehavior).as_u8 = a ∨
      FrozenBehavior.from_u8 a = none) ∧
    ((FrozenBehavior.from_u8 a).isSome ↔ ∀ i, a.toNat.testBit i = true → i ∈ [0, 1, 2]) ∧
    (ObjectStateAppearanceGeneral.from_u16 b = some ⟨b⟩ ∧ (⟨b⟩ : ObjectStateAppearanceGeneral).as_u16 = b ∨
      ObjectStateAppearanceGeneral.from_u16 b = none) ∧
    ((ObjectStateAppearanceGeneral.from_u16 b).isSome ↔
      ∀ i, b.toNat.testBit i = true → i ∈ [0, 8, 10, 11, 12, 13, 14]) ∧
    (LandPlatformAppearance.from_u32 c = some ⟨c⟩ ∧ (⟨c⟩ : LandPlatformAppearance).as_u32 = c ∨
      LandPlatformAppearance.from_u32 c = none) ∧
    ((LandPlatformAppearance.from_u32 c).isSome ↔
      ∀ i, c.toNat.testBit i = true → i ∉ [4, 8, 10, 11, 18, 20]) := by
  have key : ∀ {all bits : Nat} {named : List Nat}, (∀ i, all.testBit i = true ↔ i ∈ named) →
      (flagsFromBits all bits = some bits ∨ flagsFromBits all bits = none) ∧
      ((flagsFromBits all bits).isSome ↔ OnlyFlags named bits) := by
    intro all bits named h
    by_cases hb : OnlyFlags named bits
    · rw [flagsFromBits_some h hb]; exact ⟨.inl rfl, fun _ => hb, fun _ => rfl⟩
    · rw [flagsFromBits_none h hb]; exact ⟨.inr rfl, fun h => (nomatch h), fun h => absurd h hb⟩
  have l : OnlyFlags LandPlatformAppearance.flagBits c.toNat ↔
      ∀ i, c.toNat.testBit i = true → i ∉ [4, 8, 10, 11, 18, 20] := by
    have hc : ∀ i, c.toNat.testBit i = true → i < 32 := by
      intro i hi
      rcases Nat.lt_or_ge i 32 with h | h
      · exact h
      · rw [Nat.testBit_lt_two_pow (Nat.lt_of_lt_of_le c.toNat_lt (Nat.pow_le_pow_right (by decide) h))] at hi
        cases hi
    have ht : ∀ i, i < 32 → (i ∈ LandPlatformAppearance.flagBits ↔ i ∉ [4, 8, 10, 11, 18, 20]) := by decide
    exact ⟨fun h i hi => (ht i (hc i hi)).mp (h i hi), fun h i hi => (ht i (hc i hi)).mpr (h i hi)⟩
  have k1 := key (bits := a.toNat) FrozenBehavior.all_iff
  have k2 := key (bits := b.toNat) ObjectStateAppearanceGeneral.all_iff
  have k3 := key (bits := c.toNat) LandPlatformAppearance.all_iff
  rw [l] at k3
  refine ⟨?_, ?_, ?_, ?_, ?_, ?_⟩
  · exact k1.1.imp (fun h => ⟨by simp [FrozenBehavior.from_u8, h], rfl⟩) (fun h => by simp [FrozenBehavior.from_u8, h])
  · rw [FrozenBehavior.from_u8, Option.isSome_map]; exact k1.2
  · exact k2.1.imp (fun h => ⟨by simp [ObjectStateAppearanceGeneral.from_u16, h], rfl⟩)
      (fun h => by simp [ObjectStateAppearanceGeneral.from_u16, h])
  · rw [ObjectStateAppearanceGeneral.from_u16, Option.isSome_map]; exact k2.2
  · exact k3.1.imp (fun h => ⟨by simp [LandPlatformAppearance.from_u32, h], rfl⟩)
      (fun h => by simp [LandPlatformAppearance.from_u32, h])
  · simpa [LandPlatformAppearance.from_u32] using k3.2

/-- Both cases occur. -/
example : (deserialize_field : Get FrozenBehavior) ⟨true⟩ [5, 1] = .ok (⟨5⟩, [1]) ∧
    (deserialize_field : Get FrozenBehavior) ⟨true⟩ [13, 1] = .ok (⟨0⟩, [1]) := by decide +kernel
example : LandPlatformAppearance.from_u32 0x00200001 = some ⟨0x00200001⟩ ∧
    LandPlatformAppearance.from_u32 0x00100001 = none := by decide +kernel

end Dis
