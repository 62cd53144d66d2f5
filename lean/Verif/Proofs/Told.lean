import Verif.Spec.Truthful
import Verif.Proofs.Injective
/-
Octets tell values apart: for C58.
-/
namespace Dis

/-- Among the values in `P`, the octets tell which it is and where they end. -/
def Told {α : Type} [Wire α] (P : α → Prop) : Prop :=
  ∀ {x y : α} {r s : Bytes}, P x → P y → wire x ++ r = wire y ++ s → x = y ∧ r = s

theorem told_exact {α : Type} [Wire α] [FieldDeserialize α] [Dec α] [LawfulDec α] [ExactDec α] :
    Told fun _ : α => True := fun {x y} _ _ _ _ e => prefix_of_reads (reads_exact x) (reads_exact y) e

theorem told_of_reads {α : Type} [Wire α] {P : α → Prop} {g : Get α} (h : ∀ x, P x → Reads g (wire x) x) : Told P :=
  fun hx hy e => prefix_of_reads (h _ hx) (h _ hy) e

theorem Told.one {α : Type} [Wire α] [FieldDeserialize α] [Dec α] [LawfulDec α] [ExactDec α] {x y : α} {r s : Bytes}
    (e : wire x ++ r = wire y ++ s) : x = y ∧ r = s := told_exact trivial trivial e

theorem Told.list {α : Type} [Wire α] {P : α → Prop} (h : Told P) : ∀ {l l' : List α} {r s : Bytes},
    l.length = l'.length → (∀ x ∈ l, P x) → (∀ x ∈ l', P x) → wire l ++ r = wire l' ++ s → l = l' ∧ r = s
  | [], [], _, _, _, _, _, e => ⟨rfl, e⟩
  | [], _ :: _, _, _, n, _, _, _ => nomatch n
  | _ :: _, [], _, _, n, _, _, _ => nomatch n
  | x :: l, y :: l', r, s, n, h1, h2, e => by
    have e : wire x ++ wire l ++ r = wire y ++ wire l' ++ s := e
    rw [List.append_assoc, List.append_assoc] at e
    obtain ⟨e1, e2⟩ := h (h1 x (List.mem_cons_self ..)) (h2 y (List.mem_cons_self ..)) e
    obtain ⟨e3, e4⟩ := Told.list h (Nat.succ.inj n) (fun z hz => h1 z (List.mem_cons_of_mem _ hz))
      (fun z hz => h2 z (List.mem_cons_of_mem _ hz)) e2
    exact ⟨by rw [e1, e3], e4⟩

theorem Told.list_exact {α : Type} [Wire α] [FieldDeserialize α] [Dec α] [LawfulDec α] [ExactDec α] {l l' : List α}
    {r s : Bytes} (n : l.length = l'.length) (e : wire l ++ r = wire l' ++ s) : l = l' ∧ r = s :=
  Told.list told_exact n (fun _ _ => trivial) (fun _ _ => trivial) e

/-- The same for lists of optional values, all of them present. -/
theorem Told.options {α : Type} [Wire α] {P : Option α → Prop} (h : Told P) {l l' : List (Option α)} {r s : Bytes}
    (n : l.length = l'.length) (h1 : ∀ x ∈ l, P x) (h2 : ∀ x ∈ l', P x) (e : wire l ++ r = wire l' ++ s) : l = l' ∧ r = s :=
  Told.list h n h1 h2 e

theorem told_some {α : Type} [Wire α] [FieldDeserialize α] [Dec α] [LawfulDec α] [ExactDec α] :
    Told fun o : Option α => o.isSome := by
  intro x y r s hx hy e
  cases x with
  | none => cases hx
  | some x =>
    cases y with
    | none => cases hy
    | some y =>
      have e : wire x ++ r = wire y ++ s := e
      obtain ⟨e1, e2⟩ := told_exact trivial trivial e
      exact ⟨by rw [e1], e2⟩

theorem told_bytes {l l' : Bytes} {r s : Bytes} (n : l.length = l'.length) (e : l ++ r = l' ++ s) : l = l' ∧ r = s :=
  List.append_inj e n

theorem body_told {B : Type} [PduBody B] [Wire B] [Enc B] [Dec B] [Tail B] [LawfulBody B] {x y : B} {r s : Bytes}
    (hx : decodable x) (hy : decodable y) (e : wire x ++ r = wire y ++ s) :
    kept x = kept y ∧ tail x ++ r = tail y ++ s := by
  rw [LawfulBody.split x, LawfulBody.split y, List.append_assoc, List.append_assoc] at e
  exact prefix_of_reads (LawfulBody.reads x hx) (LawfulBody.reads y hy) e

/-! ### Records -/

theorem EmissionBeam.told : Told fun b : ElectromagneticEmissionBeamData =>
    b.number_of_track_jam_targets.toNat = b.track_jam_targets.length :=
  told_of_reads fun x h => ElectromagneticEmissionBeamData.reads x h
theorem EmissionSystem.told : Told fun s : ElectromagneticEmissionSystemData =>
    s.number_of_beams.toNat = s.beam_data_records.length ∧
    ∀ b ∈ s.beam_data_records, b.number_of_track_jam_targets.toNat = b.track_jam_targets.length :=
  told_of_reads fun x h => ElectromagneticEmissionSystemData.reads x h
theorem AttributeRecordSet.told : Told fun s : AttributeRecordSet =>
    s.number_of_attribute_records.toNat = s.attribute_records.length ∧
    ∀ r ∈ s.attribute_records, r.record_length.toNat = r.record_specific_fields.length :=
  told_of_reads fun x h => AttributeRecordSet.reads x h
theorem RecordSpecification.told : Told RecordSpecification.truthful :=
  told_of_reads fun x h => RecordSpecification.reads x h
theorem StandardVariableSpecification.told : Told StandardVariableSpecification.truthful :=
  told_of_reads fun x h => StandardVariableSpecification.reads x h

theorem VariableDatumRecord.told : Told VariableDatumRecord.truthful := by
  rintro ⟨a, n, v⟩ ⟨a', n', v'⟩ r s (h : n.toNat = 8 * v.length) (h' : n'.toNat = 8 * v'.length) e
  have e : (wire a ▹ wire n ▹ wire v ▹ List.replicate (padOctets n.toNat) 0) ++ r =
    (wire a' ▹ wire n' ▹ wire v' ▹ List.replicate (padOctets n'.toNat) 0) ++ s := e
  simp only [List.append_assoc] at e
  obtain ⟨h1, e1⟩ := Told.one e
  obtain ⟨h2, e2⟩ := Told.one e1
  subst h1 h2
  obtain ⟨h3, e3⟩ := Told.list_exact (by omega) e2
  subst h3
  exact ⟨rfl, (List.append_inj e3 rfl).2⟩

theorem octets_told {n a b : Nat} {r s : Bytes} (ha : a < 256 ^ n) (hb : b < 256 ^ n)
    (e : octets n a ++ r = octets n b ++ s) : a = b ∧ r = s := by
  obtain ⟨e1, e2⟩ := List.append_inj e (by rw [octets_length, octets_length])
  have := congrArg beVal e1
  rw [octets_eq, octets_eq, beVal_beBytes, beVal_beBytes, Nat.mod_eq_of_lt ha, Nat.mod_eq_of_lt hb] at this
  exact ⟨this, e2⟩

theorem enum_told {S : EnumSpec} {n : Nat} (hs : ∀ c ∈ S.codes, c < 256 ^ n) {a b : EnumVal S} {r s : Bytes}
    (e : octets n a.code ++ r = octets n b.code ++ s) : a = b ∧ r = s := by
  obtain ⟨e1, e2⟩ := octets_told (hs _ a.mem) (hs _ b.mem) e
  exact ⟨EnumVal.ext e1, e2⟩

theorem VariableTransmitterParameters.told : Told fun x : VariableTransmitterParameters =>
    x.record_length.toNat = x.record_specific_fields.length := by
  rintro ⟨a, n, v⟩ ⟨a', n', v'⟩ r s (h : n.toNat = v.length) (h' : n'.toNat = v'.length) e
  have e : (octets 4 a.code ▹ wire n ▹ wire v) ++ r = (octets 4 a'.code ▹ wire n' ▹ wire v') ++ s := e
  simp only [List.append_assoc] at e
  obtain ⟨h1, e1⟩ := enum_told (by decide +kernel) e
  obtain ⟨h2, e2⟩ := Told.one e1
  subst h1 h2
  obtain ⟨h3, e3⟩ := Told.list_exact (by omega) e2
  subst h3
  exact ⟨rfl, e3⟩

theorem strBytes_inj {s t : String} (h : strBytes s = strBytes t) : s = t := by
  unfold strBytes at h
  have := Array.toList_inj.mp h
  have : s.toByteArray = t.toByteArray := ByteArray.ext this
  exact String.toByteArray_inj.mp this

theorem EntityMarking.told : Told fun x : EntityMarking => (strBytes x.entity_marking_string).length = 11 := by
  rintro ⟨a, t⟩ ⟨a', t'⟩ r s (h : (strBytes t).length = 11) (h' : (strBytes t').length = 11) e
  have e : (wire a ▹ strBytes t) ++ r = (wire a' ▹ strBytes t') ++ s := e
  simp only [List.append_assoc] at e
  obtain ⟨h1, e1⟩ := enum_told (n := 1) (by decide +kernel) e
  obtain ⟨h2, e2⟩ := List.append_inj e1 (by omega)
  rw [h1, strBytes_inj h2]
  exact ⟨rfl, e2⟩

theorem ObjectStateAppearanceGeneral.told : Told fun _ : ObjectStateAppearanceGeneral => True := by
  rintro ⟨a⟩ ⟨b⟩ r s _ _ e
  obtain ⟨h1, e1⟩ := Told.one (x := a) (y := b) e
  rw [h1]
  exact ⟨rfl, e1⟩

theorem GridAxisDescriptor.told : Told GridAxisDescriptor.truthful := by
  rintro ⟨a, b, c, d, t, x⟩ ⟨a', b', c', d', t', x'⟩ r s h h' e
  replace e : (wire a ▹ wire b ▹ wire c ▹ wire d ▹ wire t ▹ wire x) ++ r =
    (wire a' ▹ wire b' ▹ wire c' ▹ wire d' ▹ wire t' ▹ wire x') ++ s := e
  simp only [List.append_assoc] at e
  replace e := Told.one e
  obtain ⟨h1, e⟩ := e
  replace e := Told.one e
  obtain ⟨h2, e⟩ := e
  replace e := Told.one e
  obtain ⟨h3, e⟩ := e
  replace e := Told.one e
  obtain ⟨h4, e⟩ := e
  replace e := Told.one e
  obtain ⟨h5, e⟩ := e
  subst h1 h2 h3 h4 h5
  cases x with
  | FixedSpacing n i =>
    have h : t = .RegularAxis := h
    cases x' with
    | FixedSpacing n' i' =>
      replace e : (wire n ▹ wire i) ++ r = (wire n' ▹ wire i') ++ s := e
      simp only [List.append_assoc] at e
      replace e := Told.one e
      obtain ⟨h6, e⟩ := e
      replace e := Told.one e
      obtain ⟨h7, e⟩ := e
      subst h6 h7
      exact ⟨rfl, e⟩
    | VariableSpacing n' i' sc' o' v' p' =>
      have h' := h'.1
      subst h
      cases h'
  | VariableSpacing n i sc o v p =>
    obtain ⟨h, hn, hp, hm⟩ := h
    have h : t = .IrregularAxis := h
    cases x' with
    | FixedSpacing n' i' =>
      have h' : t = .RegularAxis := h'
      subst h
      cases h'
    | VariableSpacing n' i' sc' o' v' p' =>
      obtain ⟨h', hn', hp', hm'⟩ := h'
      replace e : (wire n ▹ wire i ▹ wire sc ▹ wire o ▹ wire v ▹ wire p) ++ r =
        (wire n' ▹ wire i' ▹ wire sc' ▹ wire o' ▹ wire v' ▹ wire p') ++ s := e
      simp only [List.append_assoc] at e
      replace e := Told.one e
      obtain ⟨h1, e⟩ := e
      replace e := Told.one e
      obtain ⟨h2, e⟩ := e
      replace e := Told.one e
      obtain ⟨h3, e⟩ := e
      replace e := Told.one e
      obtain ⟨h4, e⟩ := e
      subst h1 h2 h3 h4
      replace e := Told.list_exact (by omega) e
      obtain ⟨h5, e⟩ := e
      subst h5
      replace e := Told.list_exact (by omega) e
      obtain ⟨h6, e⟩ := e
      subst h6
      exact ⟨rfl, e⟩

theorem GridDataRecord.told : Told GridDataRecord.truthful := by
  rintro ⟨a, b, x⟩ ⟨a', b', x'⟩ r s h h' e
  replace e : (octets 2 a.code ▹ octets 2 b.code ▹ wire x) ++ r = (octets 2 a'.code ▹ octets 2 b'.code ▹ wire x') ++ s := e
  simp only [List.append_assoc] at e
  replace e := enum_told (by decide +kernel) e
  obtain ⟨h1, e⟩ := e
  replace e := enum_told (by decide +kernel) e
  obtain ⟨h2, e⟩ := e
  subst h1 h2
  cases x with
  | Type0 n v p =>
    obtain ⟨hb, hn, hp, hm⟩ := h
    have hb : b.code = 0 := hb
    cases x' with
    | Type0 n' v' p' =>
      obtain ⟨_, hn', hp', hm'⟩ := h'
      replace e : (wire n ▹ wire v ▹ wire p) ++ r = (wire n' ▹ wire v' ▹ wire p') ++ s := e
      simp only [List.append_assoc] at e
      replace e := Told.one e
      obtain ⟨h1, e⟩ := e
      subst h1
      replace e := Told.list_exact (by omega) e
      obtain ⟨h2, e⟩ := e
      subst h2
      replace e := Told.list_exact (by omega) e
      obtain ⟨h3, e⟩ := e
      subst h3
      exact ⟨rfl, e⟩
    | Type1 => have h' : b.code = 1 := h'.1; omega
    | Type2 => have h' : b.code = 2 := h'.1; omega
  | Type1 f o n v p =>
    obtain ⟨hb, hn, hp, hm⟩ := h
    have hb : b.code = 1 := hb
    cases x' with
    | Type0 => have h' : b.code = 0 := h'.1; omega
    | Type1 f' o' n' v' p' =>
      obtain ⟨_, hn', hp', hm'⟩ := h'
      replace e : (wire f ▹ wire o ▹ wire n ▹ wire v ▹ wire p) ++ r = (wire f' ▹ wire o' ▹ wire n' ▹ wire v' ▹ wire p') ++ s := e
      simp only [List.append_assoc] at e
      replace e := Told.one e
      obtain ⟨h1, e⟩ := e
      replace e := Told.one e
      obtain ⟨h2, e⟩ := e
      replace e := Told.one e
      obtain ⟨h3, e⟩ := e
      subst h1 h2 h3
      replace e := Told.list_exact (by omega) e
      obtain ⟨h4, e⟩ := e
      subst h4
      replace e := Told.list_exact (by omega) e
      obtain ⟨h5, e⟩ := e
      subst h5
      exact ⟨rfl, e⟩
    | Type2 => have h' : b.code = 2 := h'.1; omega
  | Type2 n p v =>
    obtain ⟨hb, hn⟩ := h
    have hb : b.code = 2 := hb
    cases x' with
    | Type0 => have h' : b.code = 0 := h'.1; omega
    | Type1 => have h' : b.code = 1 := h'.1; omega
    | Type2 n' p' v' =>
      obtain ⟨_, hn'⟩ := h'
      replace e : (wire n ▹ wire p ▹ wire v) ++ r = (wire n' ▹ wire p' ▹ wire v') ++ s := e
      simp only [List.append_assoc] at e
      replace e := Told.one e
      obtain ⟨h1, e⟩ := e
      replace e := Told.one e
      obtain ⟨h2, e⟩ := e
      subst h1 h2
      replace e := Told.list_exact (by omega) e
      obtain ⟨h3, e⟩ := e
      subst h3
      exact ⟨rfl, e⟩

end Dis
