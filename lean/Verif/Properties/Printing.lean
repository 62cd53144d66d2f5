import Verif.Proofs.LegibleKinds
import Verif.Properties.RoundTrip
/-
C68: what is printed with `{:?}` or `{:#?}` tells what was there.

`calm x` (Verif.Spec.Printing) is `x` with every NaN replaced by one NaN and the two reserved bits of the status record
cleared; nothing else is changed.  `Fmt.Lawful` lists what is assumed of the standard library's texts for floating-point
numbers and strings.
-/
namespace Dis

/-! ### A formatter that meets the assumptions (the real one prints floating-point numbers in decimal) -/

/-- two letters for an octet -/
def letters (b : UInt8) : Text := [97 + b / 16, 97 + b % 16]
/-- a formatter for the examples -/
def sampleFmt (indented : Bool) : Fmt where
  alternate := indented
  f32 x := if x.nanBits then [78, 97, 78] else decimal x.bits.toNat
  f64 x := if x.nanBits then [78, 97, 78] else decimal x.bits.toNat
  str s := 34 :: ((strBytes s).flatMap letters ++ [34])
  foreign e := strBytes e.text

theorem letters_fact (b : UInt8) : (97 + b / 16 ≠ 34 ∧ 97 + b / 16 ≠ 10 ∧ 97 + b % 16 ≠ 10) ∧
    (97 + b / 16 - 97) * 16 + (97 + b % 16 - 97) = b := by
  have key : ∀ n : Fin 256, (97 + UInt8.ofNat n.val / 16 ≠ 34 ∧ 97 + UInt8.ofNat n.val / 16 ≠ 10 ∧
      97 + UInt8.ofNat n.val % 16 ≠ 10) ∧
      (97 + UInt8.ofNat n.val / 16 - 97) * 16 + (97 + UInt8.ofNat n.val % 16 - 97) = UInt8.ofNat n.val := by
    decide +kernel
  have := key ⟨b.toNat, b.toNat_lt⟩
  simp only [UInt8.ofNat_toNat] at this
  exact this

theorem letters_tell : ∀ {s t : Bytes} {r r' : Text},
    s.flatMap letters ++ ([34] ++ r) = t.flatMap letters ++ ([34] ++ r') → s = t ∧ r = r'
  | [], [], _, _, h => ⟨rfl, (List.cons.inj h).2⟩
  | [], b :: t, _, _, h => absurd (List.cons.inj h).1.symm (letters_fact b).1.1
  | b :: s, [], _, _, h => absurd (List.cons.inj h).1 (letters_fact b).1.1
  | b :: s, c :: t, r, r', h => by
    have h1 := (List.cons.inj h).1
    have h2 := (List.cons.inj (List.cons.inj h).2).1
    have h3 := letters_tell (List.cons.inj (List.cons.inj h).2).2
    have hb := (letters_fact b).2
    rw [h1, h2, (letters_fact c).2] at hb
    exact ⟨by rw [hb, h3.1], h3.2⟩

theorem digit_float : ∀ d < 10, digitOctet d ∈ floatOctets := by decide +kernel
theorem decimal_float (n : Nat) : ∀ b ∈ decimal n, b ∈ floatOctets := by
  have key : ∀ fuel n, n ≤ fuel → ∀ b ∈ digitsUpTo 10 fuel n, b ∈ floatOctets := by
    intro fuel
    induction fuel with
    | zero =>
      intro n h b hb
      obtain rfl : n = 0 := by omega
      simp only [digitsUpTo, List.mem_singleton] at hb
      rw [hb]
      exact digit_float 0 (by omega)
    | succ fuel ih =>
      intro n h b hb
      unfold digitsUpTo at hb
      split at hb
      · rw [List.mem_singleton.mp hb]
        exact digit_float n (by omega)
      · rcases List.mem_append.mp hb with hb | hb
        · exact ih _ (by omega) b hb
        · rw [List.mem_singleton.mp hb]
          exact digit_float _ (by omega)
  exact key n n (Nat.le_refl _)
theorem nan_not_decimal (n : Nat) : decimal n ≠ [78, 97, 78] := fun h => by
  obtain ⟨d, hd, e⟩ := (digitsUpTo_octets 10 (by omega) (by omega) n n (Nat.le_refl _)).2 78 (by
    show 78 ∈ decimal n
    rw [h]; decide)
  exact (by decide +kernel : ∀ d < 16, (78 : UInt8) ≠ digitOctet d) d hd e

/-- The assumptions can be met. -/
theorem sampleFmt_lawful (indented : Bool) : (sampleFmt indented).Lawful where
  f32_octets x := by
    unfold sampleFmt; dsimp only
    split
    · decide
    · exact ⟨(decimal_word _).1, decimal_float _⟩
  f64_octets x := by
    unfold sampleFmt; dsimp only
    split
    · decide
    · exact ⟨(decimal_word _).1, decimal_float _⟩
  f32_nan x y hx hy := by unfold sampleFmt; dsimp only; rw [if_pos hx, if_pos hy]
  f64_nan x y hx hy := by unfold sampleFmt; dsimp only; rw [if_pos hx, if_pos hy]
  f32_tells x y h := by
    unfold sampleFmt at h; dsimp only at h
    split at h <;> split at h
    · exact .inr ⟨by assumption, by assumption⟩
    · exact absurd h.symm (nan_not_decimal _)
    · exact absurd h (nan_not_decimal _)
    · refine .inl ?_
      have := UInt32.toNat_inj.mp (decimal_inj h)
      cases x; cases y; exact congrArg _ this
  f64_tells x y h := by
    unfold sampleFmt at h; dsimp only at h
    split at h <;> split at h
    · exact .inr ⟨by assumption, by assumption⟩
    · exact absurd h.symm (nan_not_decimal _)
    · exact absurd h (nan_not_decimal _)
    · refine .inl ?_
      have := UInt64.toNat_inj.mp (decimal_inj h)
      cases x; cases y; exact congrArg _ this
  str_quote s := ⟨_, rfl⟩
  str_line s := by
    unfold sampleFmt; dsimp only
    intro h
    rcases List.mem_cons.mp h with h | h
    · exact absurd h (by decide)
    · rcases List.mem_append.mp h with h | h
      · obtain ⟨b, _, hb⟩ := List.mem_flatMap.mp h
        have := (letters_fact b).1
        simp only [letters, List.mem_cons, List.not_mem_nil, or_false] at hb
        rcases hb with hb | hb
        · exact this.2.1 hb.symm
        · exact this.2.2 hb.symm
      · exact absurd h (by decide)
  str_tells s t r r' h := by
    unfold sampleFmt at h; dsimp only at h
    have h : ((strBytes s).flatMap letters ++ [34]) ++ r = ((strBytes t).flatMap letters ++ [34]) ++ r' :=
      (List.cons.inj h).2
    rw [List.append_assoc, List.append_assoc] at h
    have e := letters_tell h
    exact ⟨String.toByteArray_inj.mp (ByteArray.ext (Array.ext' e.1)), e.2⟩

/-! ### The theorems -/

theorem Legible.shows {α : Type} [RDebug α] [Calm α] [Legible α] {σ : Fmt} (hσ : σ.Lawful) (x y : α) :
    text σ x = text σ y ↔ calm x = calm y := by
  constructor
  · intro h
    exact (Legible.reads hσ (r := []) (r' := []) trivial trivial (by rw [h])).1
  · intro h
    rw [← Legible.same hσ x, h, Legible.same hσ y]

/-- Two PDUs of a kind print the same text exactly when they agree in the header and in every field, up to the payload
of NaNs and the two reserved status bits. -/
theorem C68_shows (σ : Fmt) (hσ : σ.Lawful) (k : PduKind) (p q : Pdu k.Body) :
    text σ p = text σ q ↔ calm p = calm q := Legible.shows hσ p q

/-- So do two headers, records, or values of the flag types and of the enumerations with data. -/
theorem C68_records (σ : Fmt) (hσ : σ.Lawful) : ∀ t ∈ allPrinted, ∀ x y : t.α,
    t.debug.text σ x = t.debug.text σ y ↔ t.calm.calm x = t.calm.calm y := by
  unfold allPrinted
  repeat (refine List.forall_mem_cons.mpr ⟨fun x y => Legible.shows hσ x y, ?_⟩)
  exact fun _ h => nomatch h

/-- Two values of an enumeration print the same text exactly when they are equal (all 402 enumerations). -/
theorem C68_enums (σ : Fmt) (hσ : σ.Lawful) (s : EnumSpec) (hs : s ∈ allEnums) (x y : EnumVal s) :
    text σ x = text σ y ↔ x = y := by
  haveI := named_of_mem hs
  exact Legible.shows hσ x y

/-- Two PDUs of a kind without floating-point fields, with the reserved status bits clear, print the same text exactly
when they are equal. -/
theorem C68_exact (σ : Fmt) (hσ : σ.Lawful) (k : PduKind) (hk : k.hasFloats = false) (p q : Pdu k.Body)
    (hp : p.header.status_record.bits.toNat < 64) (hq : q.header.status_record.bits.toNat < 64) :
    text σ p = text σ q ↔ p = q := by
  have key : ∀ n : Fin 256, n.val < 64 → UInt8.ofNat n.val &&& 63 = UInt8.ofNat n.val := by decide +kernel
  have clear : ∀ p : Pdu k.Body, p.header.status_record.bits.toNat < 64 → calm p = p := fun p hp => by
    obtain ⟨⟨v, e, t, f, ts, l, ⟨st⟩, pad⟩, b⟩ := p
    have h1 := key ⟨st.toNat, st.toNat_lt⟩ hp
    simp only [UInt8.ofNat_toNat] at h1
    show Pdu.mk ⟨v, e, t, f, ts, l, ⟨st &&& 63⟩, pad⟩ (calm b) = Pdu.mk ⟨v, e, t, f, ts, l, ⟨st⟩, pad⟩ b
    rw [h1, k.plain hk b]
  rw [C68_shows σ hσ k p q, clear p hp, clear q hq]

/-- The two reserved status bits are not printed: replacing them changes nothing in the text. -/
theorem C68_reserved_bits (σ : Fmt) (hσ : σ.Lawful) (k : PduKind) (p : Pdu k.Body) (st : UInt8)
    (h : st &&& 63 = p.header.status_record.bits &&& 63) :
    text σ ({ p with header := { p.header with status_record := ⟨st⟩ } } : Pdu k.Body) = text σ p := by
  refine (C68_shows σ hσ k _ p).mpr ?_
  obtain ⟨⟨v, e, t, f, ts, l, ⟨s⟩, pad⟩, b⟩ := p
  have h : st &&& 63 = s &&& 63 := h
  show Pdu.mk ⟨v, e, t, f, ts, l, ⟨st &&& 63⟩, pad⟩ (calm b) = Pdu.mk ⟨v, e, t, f, ts, l, ⟨s &&& 63⟩, pad⟩ (calm b)
  rw [h]

theorem names_checked : (allNew (PduKind.all.map fun k => nameKey (strBytes (PduDebug.name k.Body))) .leaf) = true := by
  decide +kernel

/-- PDUs of different kinds never print the same text. -/
theorem C68_kinds (σ : Fmt) (k k' : PduKind) (p : Pdu k.Body) (q : Pdu k'.Body) (h : text σ p = text σ q) : k = k' := by
  have hn : PduDebug.name k.Body = PduDebug.name k'.Body :=
    read_other (r := []) (r' := []) (LegibleBody.named (B := k.Body)) (LegibleBody.named (B := k'.Body)) (by
      show text σ p ++ [] = text σ q ++ []
      rw [h])
  exact nodup_map_inj (allNew_nodup (t := .leaf) trivial names_checked).1 k.mem_all k'.mem_all (by simp only [hn])

/-- What is printed with `{:?}` for a PDU is on one line. -/
theorem C68_one_line (σ : Fmt) (hσ : σ.Lawful) (ha : σ.alternate = false) (k : PduKind) (p : Pdu k.Body) : (10 : UInt8) ∉ text σ p :=
  Legible.line hσ ha p

/-- So is what is printed for a header, a record, flags or an enumeration with data. -/
theorem C68_records_one_line (σ : Fmt) (hσ : σ.Lawful) (ha : σ.alternate = false) : ∀ t ∈ allPrinted, ∀ x : t.α, (10 : UInt8) ∉ t.debug.text σ x := by
  unfold allPrinted
  repeat (refine List.forall_mem_cons.mpr ⟨fun x => Legible.line hσ ha x, ?_⟩)
  exact fun _ h => nomatch h

/-- The one-line form and the indented form tell the same. -/
theorem C68_indented (σ : Fmt) (hσ : σ.Lawful) (k : PduKind) (p q : Pdu k.Body) :
    text { σ with alternate := true } p = text { σ with alternate := true } q ↔
      text { σ with alternate := false } p = text { σ with alternate := false } q :=
  have law : ∀ b, ({ σ with alternate := b } : Fmt).Lawful := fun _ => { hσ with }
  (C68_shows _ (law true) k p q).trans (C68_shows _ (law false) k p q).symm

/-! ### Concrete cases -/

example : text (sampleFmt true) ([some ⟨⟨1, 2⟩, 30⟩, none] : List (Option EntityId)) = strBytes
    ("[\n    Some(\n        EntityId {\n            simulation_address: SimulationAddress {\n                site_id: 1,\n" ++
     "                application_id: 2,\n            },\n            entity_id: 30,\n        },\n    ),\n    None,\n]") := by
  decide +kernel
example : text (sampleFmt true) (⟨5⟩ : FrozenBehavior) =
    strBytes "FrozenBehavior(\n    RunSimulationClock | ProcessUpdates,\n)" ∧
    text (sampleFmt true) ([] : List UInt8) = strBytes "[]" := by decide +kernel

example : text (sampleFmt false) (⟨⟨1, 2⟩, 30⟩ : EntityId) =
    strBytes "EntityId { simulation_address: SimulationAddress { site_id: 1, application_id: 2 }, entity_id: 30 }" := by
  decide +kernel
example : text (sampleFmt false) ([some 5, none] : List (Option UInt8)) = strBytes "[Some(5), None]" ∧
    text (sampleFmt false) (-128 : Int8) = strBytes "-128" ∧ text (sampleFmt false) ([] : List UInt8) = strBytes "[]" := by decide +kernel
example : text (sampleFmt false) (⟨0⟩ : FrozenBehavior) = strBytes "FrozenBehavior(0x0)" ∧
    text (sampleFmt false) (⟨5⟩ : FrozenBehavior) = strBytes "FrozenBehavior(RunSimulationClock | ProcessUpdates)" ∧
    text (sampleFmt false) (⟨0xa1⟩ : FrozenBehavior) = strBytes "FrozenBehavior(RunSimulationClock | 0xa0)" := by decide +kernel
/-- the reserved bits do not show -/
example : text (sampleFmt false) (⟨0xd0⟩ : PduStatusRecord) = text (sampleFmt false) (⟨0x10⟩ : PduStatusRecord) ∧
    text (sampleFmt false) (⟨0x10⟩ : PduStatusRecord) =
      strBytes "PduStatusRecord { tei: NoDifference, lvc: NoStatement, cei: NotCoupled, bit4_5: 1 }" := by decide +kernel

end Dis
