import Verif.Proofs.Told
/-
Octets tell truthful PDU bodies apart: for C58.
-/
namespace Dis

section
variable {B : Type} [PduBody B] [Wire B] [Enc B] [Dec B] [Tail B] [LawfulBody B]

/-- One counted list at the end. -/
theorem one_told {α : Type} [Wire α] {P : α → Prop} (ha : Told P) (get : B → List α) (put : B → List α → B)
    (c : B → Nat) (hp : ∀ x, put (kept x) (get x) = x) (ht : ∀ x, tail x = wire (get x)) (hc : ∀ x, c (kept x) = c x)
    {x y : B} {r s : Bytes} (hx : decodable x) (hy : decodable y)
    (nx : c x = (get x).length) (ny : c y = (get y).length) (px : ∀ a ∈ get x, P a) (py : ∀ a ∈ get y, P a)
    (e : wire x ++ r = wire y ++ s) : x = y ∧ r = s := by
  obtain ⟨e1, e2⟩ := body_told hx hy e
  rw [ht, ht] at e2
  have h1 : c x = c y := by rw [← hc x, ← hc y, e1]
  obtain ⟨e3, e4⟩ := ha.list (by omega) px py e2
  exact ⟨by rw [← hp x, ← hp y, e1, e3], e4⟩

/-- Two counted lists at the end. -/
theorem two_told {α β : Type} [Wire α] [Wire β] {P : α → Prop} {Q : β → Prop} (ha : Told P) (hb : Told Q)
    (get : B → List α) (get' : B → List β) (put : B → List α → List β → B)
    (c c' : B → Nat) (hp : ∀ x, put (kept x) (get x) (get' x) = x) (ht : ∀ x, tail x = wire (get x) ▹ wire (get' x))
    (hc : ∀ x, c (kept x) = c x ∧ c' (kept x) = c' x)
    {x y : B} {r s : Bytes} (hx : decodable x) (hy : decodable y)
    (nx : c x = (get x).length ∧ c' x = (get' x).length) (ny : c y = (get y).length ∧ c' y = (get' y).length)
    (px : ∀ a ∈ get x, P a) (py : ∀ a ∈ get y, P a) (qx : ∀ a ∈ get' x, Q a) (qy : ∀ a ∈ get' y, Q a)
    (e : wire x ++ r = wire y ++ s) : x = y ∧ r = s := by
  obtain ⟨e1, e2⟩ := body_told hx hy e
  rw [ht, ht, List.append_assoc, List.append_assoc] at e2
  have h1 : c x = c y := by rw [← (hc x).1, ← (hc y).1, e1]
  have h2 : c' x = c' y := by rw [← (hc x).2, ← (hc y).2, e1]
  obtain ⟨e3, e4⟩ := ha.list (by omega) px py e2
  obtain ⟨e5, e6⟩ := hb.list (by omega) qx qy e4
  exact ⟨by rw [← hp x, ← hp y, e1, e3, e5], e6⟩

/-- Fixed and variable datums at the end. -/
theorem datums_told (get : B → List FixedDatumRecord) (get' : B → List VariableDatumRecord)
    (put : B → List FixedDatumRecord → List VariableDatumRecord → B) (c c' : B → UInt32)
    (hp : ∀ x, put (kept x) (get x) (get' x) = x) (ht : ∀ x, tail x = wire (get x) ▹ wire (get' x))
    (hc : ∀ x, c (kept x) = c x ∧ c' (kept x) = c' x) (hd : ∀ x : B, decodable x) {x y : B} {r s : Bytes}
    (nx : datumsTruthful (c x) (c' x) (get x) (get' x)) (ny : datumsTruthful (c y) (c' y) (get y) (get' y))
    (e : wire x ++ r = wire y ++ s) : x = y ∧ r = s :=
  two_told (P := fun _ => True) (Q := VariableDatumRecord.truthful) told_exact VariableDatumRecord.told get get' put
    (fun x => (c x).toNat) (fun x => (c' x).toNat) hp ht (fun x => ⟨by rw [(hc x).1], by rw [(hc x).2]⟩) (hd x) (hd y)
    ⟨nx.1, nx.2.1⟩ ⟨ny.1, ny.2.1⟩ (fun _ _ => trivial) (fun _ _ => trivial) nx.2.2 ny.2.2 e
end

theorem EntityStatePdu.told : Told (α := EntityStatePdu) fun x =>
    (strBytes x.entity_marking.entity_marking_string).length = 11 ∧
    x.number_of_articulation_parameters.toNat = x.articulation_parameter.length := by
  rintro ⟨a, b, c, d, f, g, h, i, j, k, l, m, n⟩ ⟨a', b', c', d', f', g', h', i', j', k', l', m', n'⟩ r s ⟨h1, h2⟩ ⟨h1', h2'⟩ e
  replace e : (wire a ▹ wire b ▹ wire c ▹ wire d ▹ wire f ▹ wire g ▹ wire h ▹ wire i ▹ wire j ▹ wire k ▹ wire l ▹ wire m ▹ wire n) ++ r =
    (wire a' ▹ wire b' ▹ wire c' ▹ wire d' ▹ wire f' ▹ wire g' ▹ wire h' ▹ wire i' ▹ wire j' ▹ wire k' ▹ wire l' ▹ wire m' ▹ wire n') ++ s := e
  simp only [List.append_assoc] at e
  iterate 10
    replace e := Told.one e
    obtain ⟨q, e⟩ := e
    subst q
  replace e := EntityMarking.told h1 h1' e
  obtain ⟨q, e⟩ := e
  subst q
  replace e := Told.one e
  obtain ⟨q, e⟩ := e
  subst q
  have h2 : c.toNat = n.length := h2
  have h2' : c.toNat = n'.length := h2'
  replace e := Told.list_exact (by omega) e
  obtain ⟨q, e⟩ := e
  subst q
  exact ⟨rfl, e⟩

theorem AggregateStatePdu.told : Told AggregateStatePdu.truthful := by
  rintro ⟨a1, a2, a3, a4, a5, a6, a7, a8, a9, a10, a11, a12, a13, a14, l1, l2, l3, l4, l5, n, l6⟩
    ⟨b1, b2, b3, b4, b5, b6, b7, b8, b9, b10, b11, b12, b13, b14, m1, m2, m3, m4, m5, n', m6⟩ r s
    ⟨h1, h2, h3, h4, h5, h6, h7⟩ ⟨g1, g2, g3, g4, g5, g6, g7⟩ e
  dsimp only at h1 h2 h3 h4 h5 h6 h7 g1 g2 g3 g4 g5 g6 g7
  replace e : (wire a1 ▹ wire a2 ▹ wire a3 ▹ wire a4 ▹ wire a5 ▹ wire a6 ▹ wire a7 ▹ wire a8 ▹ wire a9 ▹ wire a10 ▹
      wire a11 ▹ wire a12 ▹ wire a13 ▹ wire a14 ▹ wire l1 ▹ wire l2 ▹ wire l3 ▹ wire l4 ▹ wire l5 ▹ wire n ▹ wire l6) ++ r =
    (wire b1 ▹ wire b2 ▹ wire b3 ▹ wire b4 ▹ wire b5 ▹ wire b6 ▹ wire b7 ▹ wire b8 ▹ wire b9 ▹ wire b10 ▹
      wire b11 ▹ wire b12 ▹ wire b13 ▹ wire b14 ▹ wire m1 ▹ wire m2 ▹ wire m3 ▹ wire m4 ▹ wire m5 ▹ wire n' ▹ wire m6) ++ s := e
  simp only [List.append_assoc] at e
  iterate 14
    replace e := Told.one e
    obtain ⟨q, e⟩ := e
    subst q
  subst h3 g3
  replace e := Told.list_exact (by omega) e
  obtain ⟨q, e⟩ := e
  subst q
  replace e := Told.list_exact (by omega) e
  obtain ⟨q, e⟩ := e
  subst q
  replace e := (List.append_inj e rfl).2
  replace e := Told.list_exact (by omega) e
  obtain ⟨q, e⟩ := e
  subst q
  replace e := Told.list_exact (by omega) e
  obtain ⟨q, e⟩ := e
  subst q
  replace e := Told.one e
  obtain ⟨q, e⟩ := e
  subst q
  replace e := VariableDatumRecord.told.list (by omega) h7 g7 e
  obtain ⟨q, e⟩ := e
  subst q
  exact ⟨rfl, e⟩

theorem ArealObjectStatePdu.told : Told (α := ArealObjectStatePdu) fun x => x.number_of_points.toNat = x.object_location.length := by
  rintro ⟨a, b, c, d, f, g, h, i, j, k, l, m⟩ ⟨a', b', c', d', f', g', h', i', j', k', l', m'⟩ r s h1 h1' e
  dsimp only at h1 h1'
  replace e : (wire a ▹ wire b ▹ wire c ▹ wire d ▹ wire f ▹ wire g ▹ wire h ▹ wire i ▹ wire j ▹ wire k ▹ wire l ▹ wire m) ++ r =
    (wire a' ▹ wire b' ▹ wire c' ▹ wire d' ▹ wire f' ▹ wire g' ▹ wire h' ▹ wire i' ▹ wire j' ▹ wire k' ▹ wire l' ▹ wire m') ++ s := e
  simp only [List.append_assoc] at e
  iterate 7
    replace e := Told.one e
    obtain ⟨q, e⟩ := e
    subst q
  replace e := ObjectStateAppearanceGeneral.told trivial trivial e
  obtain ⟨q, e⟩ := e
  subst q
  iterate 3
    replace e := Told.one e
    obtain ⟨q, e⟩ := e
    subst q
  replace e := Told.list_exact (by omega) e
  obtain ⟨q, e⟩ := e
  subst q
  exact ⟨rfl, e⟩

theorem vertices_told : ∀ {l l' : List (Option (List EntityCoordinateVector))} {r s : Bytes},
    (∀ o ∈ l, o.isSome) → (∀ o ∈ l', o.isSome) →
    (l.map fun o => (o.getD []).length) = (l'.map fun o => (o.getD []).length) →
    wire l ++ r = wire l' ++ s → l = l' ∧ r = s
  | [], [], _, _, _, _, _, e => ⟨rfl, e⟩
  | [], _ :: _, _, _, _, _, n, _ => nomatch n
  | _ :: _, [], _, _, _, _, n, _ => nomatch n
  | none :: _, _, _, _, h, _, _, _ => nomatch h none (List.mem_cons_self ..)
  | some _ :: _, none :: _, _, _, _, h, _, _ => nomatch h none (List.mem_cons_self ..)
  | some x :: l, some y :: l', r, s, h1, h2, n, e => by
    replace e : wire x ++ wire l ++ r = wire y ++ wire l' ++ s := e
    rw [List.append_assoc, List.append_assoc] at e
    simp only [List.map_cons, List.cons.injEq, Option.getD_some] at n
    replace e := Told.list_exact n.1 e
    obtain ⟨q, e⟩ := e
    subst q
    replace e := vertices_told (fun z hz => h1 z (List.mem_cons_of_mem _ hz)) (fun z hz => h2 z (List.mem_cons_of_mem _ hz)) n.2 e
    obtain ⟨q, e⟩ := e
    subst q
    exact ⟨rfl, e⟩

theorem reported.told {α : Type} [Wire α] [FieldDeserialize α] [Dec α] [LawfulDec α] [ExactDec α] {f : UInt32} {i n : Nat}
    {l l' : List (Option α)} {r s : Bytes} (h : reported f i n l) (h' : reported f i n l') (e : wire l ++ r = wire l' ++ s) :
    l = l' ∧ r = s :=
  told_some.list (h.1.trans h'.1.symm) h.2 h'.2 e

theorem MinefieldDataPdu.told : Told MinefieldDataPdu.truthful := by
  rintro ⟨a1, a2, a3, a4, a5, a6, a7, a8, a9, a10, a11, l1, l2, l3, l4, l5, l6, l7, l8, l9, l10, l11, l12, l13, l14, l15, l16⟩
    ⟨b1, b2, b3, b4, b5, b6, b7, b8, b9, b10, b11, m1, m2, m3, m4, m5, m6, m7, m8, m9, m10, m11, m12, m13, m14, m15, m16⟩ r s
    ⟨h1, h2, h3, h4, h5, h6, h7, h8, h9, h10, h11, h12, h13, h14, h15, h16, h17⟩
    ⟨g1, g2, g3, g4, g5, g6, g7, g8, g9, g10, g11, g12, g13, g14, g15, g16, g17⟩ e
  dsimp only at h1 h2 h3 h4 h5 h6 h7 h8 h9 h10 h11 h12 h13 h14 h15 h16 h17
  dsimp only at g1 g2 g3 g4 g5 g6 g7 g8 g9 g10 g11 g12 g13 g14 g15 g16 g17
  replace e : (wire a1 ▹ wire a2 ▹ wire a3 ▹ wire a4 ▹ wire a5 ▹ wire a6 ▹ wire a7 ▹ wire a8 ▹ wire a9 ▹ wire a10 ▹ wire a11 ▹ wire l1 ▹ wire l2 ▹ wire l3 ▹ wire l4 ▹ wire l5 ▹ wire l6 ▹ wire l7 ▹ wire l8 ▹ wire l9 ▹ wire l10 ▹ wire l11 ▹ wire l12 ▹ wire l13 ▹ wire l14 ▹ wire l15 ▹ wire l16) ++ r =
    (wire b1 ▹ wire b2 ▹ wire b3 ▹ wire b4 ▹ wire b5 ▹ wire b6 ▹ wire b7 ▹ wire b8 ▹ wire b9 ▹ wire b10 ▹ wire b11 ▹ wire m1 ▹ wire m2 ▹ wire m3 ▹ wire m4 ▹ wire m5 ▹ wire m6 ▹ wire m7 ▹ wire m8 ▹ wire m9 ▹ wire m10 ▹ wire m11 ▹ wire m12 ▹ wire m13 ▹ wire m14 ▹ wire m15 ▹ wire m16) ++ s := e
  simp only [List.append_assoc] at e
  iterate 11
    replace e := Told.one e
    obtain ⟨q, e⟩ := e
    subst q
  replace e := Told.list_exact (by omega) e
  obtain ⟨q, e⟩ := e
  subst q
  replace e := Told.list_exact (by omega) e
  obtain ⟨q, e⟩ := e
  subst q
  replace e := reported.told h3 g3 e
  obtain ⟨q, e⟩ := e
  subst q
  replace e := reported.told h4 g4 e
  obtain ⟨q, e⟩ := e
  subst q
  replace e := reported.told h5 g5 e
  obtain ⟨q, e⟩ := e
  subst q
  replace e := reported.told h6 g6 e
  obtain ⟨q, e⟩ := e
  subst q
  replace e := reported.told h7 g7 e
  obtain ⟨q, e⟩ := e
  subst q
  replace e := reported.told h8 g8 e
  obtain ⟨q, e⟩ := e
  subst q
  replace e := reported.told h9 g9 e
  obtain ⟨q, e⟩ := e
  subst q
  replace e := told_some.list (h10.1.trans g10.1.symm) h10.2 g10.2 e
  obtain ⟨q, e⟩ := e
  subst q
  replace e := reported.told h11 g11 e
  obtain ⟨q, e⟩ := e
  subst q
  replace e := reported.told h12 g12 e
  obtain ⟨q, e⟩ := e
  subst q
  replace e := reported.told h13 g13 e
  obtain ⟨q, e⟩ := e
  subst q
  replace e := reported.told h14 g14 e
  obtain ⟨q, e⟩ := e
  subst q
  replace e := reported.told h15 g15 e
  obtain ⟨q, e⟩ := e
  subst q
  replace e := vertices_told h16 g16 (h17.trans g17.symm) e
  obtain ⟨q, e⟩ := e
  subst q
  exact ⟨rfl, e⟩

theorem octets_of_option {α : Type} [Wire α] {f : α → Bytes} (hf : ∀ m : α, wire m = f m) (o : Option α) :
    wire o = o.elim [] f := by
  cases o with
  | none => rfl
  | some m => exact hf m

theorem option_told {α : Type} [Wire α] {f : α → Bytes} (hf : ∀ m : α, wire m = f m) (hi : ∀ {a b : α}, f a = f b → a = b)
    {o o' : Option α} {r s : Bytes} (h : ∀ a, o = some a → f a ≠ []) (h' : ∀ a, o' = some a → f a ≠ [])
    (n : (o.elim 0 fun a => (f a).length) = o'.elim 0 fun a => (f a).length) (e : wire o ++ r = wire o' ++ s) :
    o = o' ∧ r = s := by
  rw [octets_of_option hf, octets_of_option hf] at e
  cases o with
  | none =>
    cases o' with
    | none => exact ⟨rfl, e⟩
    | some b => exact absurd (List.eq_nil_of_length_eq_zero n.symm) (h' b rfl)
  | some a =>
    cases o' with
    | none => exact absurd (List.eq_nil_of_length_eq_zero n) (h a rfl)
    | some b =>
      obtain ⟨e1, e2⟩ := List.append_inj e n
      exact ⟨by rw [hi e1], e2⟩

theorem TransmitterPdu.truthful_decodable {x : TransmitterPdu} (h : x.truthful) : decodable (TransmitterPdu.prep x) := by
  refine ⟨?_, fun e => (h.1 _ e).1 rfl⟩
  have hl : (wire x.modulation_parameters).length ≤ 255 := by
    rw [octets_of_option (f := fun m : ModulationParameters => m.record_specific_fields) (fun m => wire_bytes _)]
    cases hm : x.modulation_parameters with
    | none => exact Nat.zero_le _
    | some m => exact (h.1 m hm).2
  unfold TransmitterPdu.prep
  rw [len_exact]
  show (if _ then UInt8.ofNat _ else 0).toNat = _
  rw [if_pos (by omega), UInt8.toNat_ofNat_of_lt' (by simp only [UInt8.size]; omega)]

theorem TransmitterPdu.told : Told (α := TransmitterPdu) fun x => x.truthful ∧ decodable x := by
  intro x y r s hx hy e
  obtain ⟨e1, e⟩ := body_told hx.2 hy.2 e
  obtain ⟨⟨_, x1, x2, x3, x4⟩, _⟩ := hx
  obtain ⟨⟨_, y1, y2, y3, y4⟩, _⟩ := hy
  replace e : (wire x.antenna_pattern ▹ wire x.variable_transmitter_parameters) ++ r =
    (wire y.antenna_pattern ▹ wire y.variable_transmitter_parameters) ++ s := e
  simp only [List.append_assoc] at e
  have h1 : (kept x).antenna_pattern_length = (kept y).antenna_pattern_length := by rw [e1]
  replace h1 : x.antenna_pattern_length = y.antenna_pattern_length := h1
  have h2 : (kept x).number_of_variable_transmitter_parameters_records =
    (kept y).number_of_variable_transmitter_parameters_records := by rw [e1]
  replace h2 : x.number_of_variable_transmitter_parameters_records = y.number_of_variable_transmitter_parameters_records := h2
  obtain ⟨e2, e3⟩ := option_told (f := fun a : AntennaPattern => a.record_specific_fields) (fun m => wire_bytes _)
    (fun {a b} h => by cases a; cases b; cases h; rfl) x1 y1 (by rw [← x2, ← y2, h1]) e
  obtain ⟨e4, e5⟩ := VariableTransmitterParameters.told.list (by rw [← x3, ← y3, h2]) x4 y4 e3
  refine ⟨?_, e5⟩
  have hp : ∀ z : TransmitterPdu, ({ (kept z : TransmitterPdu) with
      antenna_pattern := z.antenna_pattern, variable_transmitter_parameters := z.variable_transmitter_parameters } : TransmitterPdu) = z :=
    fun _ => rfl
  rw [← hp x, ← hp y, e1, e2, e4]

theorem UnderwaterAcousticPdu.told : Told (α := UnderwaterAcousticPdu) fun x =>
    x.number_of_shafts.toNat = x.shaft_rpms.length ∧ x.number_of_apas.toNat = x.apa_data.length ∧
    x.number_of_ua_emitter_systems.toNat = x.emitter_systems.length := by
  intro x y r s hx hy e
  obtain ⟨e1, e⟩ := body_told (B := UnderwaterAcousticPdu) (x := x) (y := y) trivial trivial e
  replace e : (wire x.shaft_rpms ▹ wire x.apa_data ▹ wire x.emitter_systems) ++ r =
    (wire y.shaft_rpms ▹ wire y.apa_data ▹ wire y.emitter_systems) ++ s := e
  simp only [List.append_assoc] at e
  have h1 : (kept x).number_of_shafts = (kept y).number_of_shafts := by rw [e1]
  replace h1 : x.number_of_shafts = y.number_of_shafts := h1
  have h2 : (kept x).number_of_apas = (kept y).number_of_apas := by rw [e1]
  replace h2 : x.number_of_apas = y.number_of_apas := h2
  have h3 : (kept x).number_of_ua_emitter_systems = (kept y).number_of_ua_emitter_systems := by rw [e1]
  replace h3 : x.number_of_ua_emitter_systems = y.number_of_ua_emitter_systems := h3
  obtain ⟨e2, e⟩ := Told.list_exact (by rw [← hx.1, ← hy.1, h1]) e
  obtain ⟨e3, e⟩ := Told.list_exact (by rw [← hx.2.1, ← hy.2.1, h2]) e
  obtain ⟨e4, e⟩ := Told.list_exact (by rw [← hx.2.2, ← hy.2.2, h3]) e
  refine ⟨?_, e⟩
  have hp : ∀ z : UnderwaterAcousticPdu, ({ (kept z : UnderwaterAcousticPdu) with
      shaft_rpms := z.shaft_rpms, apa_data := z.apa_data, emitter_systems := z.emitter_systems } : UnderwaterAcousticPdu) = z :=
    fun _ => rfl
  rw [← hp x, ← hp y, e1, e2, e3, e4]

theorem RecordSpecification.sent_truthful {x : RecordSpecification} (h : x.truthful) : sent x = x := by
  obtain ⟨n, l⟩ := x
  show RecordSpecification.mk n (sent l) = _
  have : ∀ l : List RecordSpecificationElement, (∀ s ∈ l, s.record_length.toNat * s.record_count.toNat < 65536 ∧
      s.record_length.toNat * s.record_count.toNat = s.record_values.length) → sent l = l := by
    intro l
    induction l with
    | nil => intro _; rfl
    | cons a l ih =>
      intro h
      show sent a :: sent l = _
      rw [ih fun s hs => h s (List.mem_cons_of_mem _ hs)]
      obtain ⟨h1, h2⟩ := h a (List.mem_cons_self ..)
      have : a.octetsSent = a.record_values.length := by
        unfold RecordSpecificationElement.octetsSent RecordSpecificationElement.octetCount
        rw [Nat.mod_eq_of_lt h1, h2]
      have : sent a = a := by
        show ({ a with record_values := a.record_values.take a.octetsSent } : RecordSpecificationElement) = a
        rw [this, List.take_length]
      rw [this]
  rw [this l h.2]

theorem PduKind.told (k : PduKind) (hk : k.fixedLayout = false ∧ k.oneList = false) {b c : k.Body} {r s : Bytes}
    (hb : k.truthful b) (hc : k.truthful c)
    (e : wire (sent (PduBody.prep b)) ++ r = wire (sent (PduBody.prep c)) ++ s) :
    sent (PduBody.prep b) = sent (PduBody.prep c) ∧ r = s := by
  cases k
  case ActionRequest =>
    rw [PduKind.unconditional_sent .ActionRequest rfl, PduKind.unconditional_sent .ActionRequest rfl] at *
    exact datums_told ActionRequestPdu.fixed_datum_records ActionRequestPdu.variable_datum_records
      (fun x l l' => ({ x with fixed_datum_records := l, variable_datum_records := l' } : ActionRequestPdu))
      ActionRequestPdu.number_of_fixed_datum_records ActionRequestPdu.number_of_variable_datum_records (fun _ => rfl) (fun _ => rfl)
      (fun _ => ⟨rfl, rfl⟩) (fun _ => trivial) hb hc e
  case ActionResponse =>
    rw [PduKind.unconditional_sent .ActionResponse rfl, PduKind.unconditional_sent .ActionResponse rfl] at *
    exact datums_told ActionResponsePdu.fixed_datum_records ActionResponsePdu.variable_datum_records
      (fun x l l' => ({ x with fixed_datum_records := l, variable_datum_records := l' } : ActionResponsePdu))
      ActionResponsePdu.number_of_fixed_datum_records ActionResponsePdu.number_of_variable_datum_records (fun _ => rfl) (fun _ => rfl)
      (fun _ => ⟨rfl, rfl⟩) (fun _ => trivial) hb hc e
  case DataQuery =>
    rw [PduKind.unconditional_sent .DataQuery rfl, PduKind.unconditional_sent .DataQuery rfl] at *
    exact datums_told DataQueryPdu.fixed_datum_records DataQueryPdu.variable_datum_records
      (fun x l l' => ({ x with fixed_datum_records := l, variable_datum_records := l' } : DataQueryPdu))
      DataQueryPdu.number_of_fixed_datum_records DataQueryPdu.number_of_variable_datum_records (fun _ => rfl) (fun _ => rfl)
      (fun _ => ⟨rfl, rfl⟩) (fun _ => trivial) hb hc e
  case SetData =>
    rw [PduKind.unconditional_sent .SetData rfl, PduKind.unconditional_sent .SetData rfl] at *
    exact datums_told SetDataPdu.fixed_datum_records SetDataPdu.variable_datum_records
      (fun x l l' => ({ x with fixed_datum_records := l, variable_datum_records := l' } : SetDataPdu))
      SetDataPdu.number_of_fixed_datum_records SetDataPdu.number_of_variable_datum_records (fun _ => rfl) (fun _ => rfl)
      (fun _ => ⟨rfl, rfl⟩) (fun _ => trivial) hb hc e
  case Data =>
    rw [PduKind.unconditional_sent .Data rfl, PduKind.unconditional_sent .Data rfl] at *
    exact datums_told DataPdu.fixed_datum_records DataPdu.variable_datum_records
      (fun x l l' => ({ x with fixed_datum_records := l, variable_datum_records := l' } : DataPdu))
      DataPdu.number_of_fixed_datum_records DataPdu.number_of_variable_datum_records (fun _ => rfl) (fun _ => rfl)
      (fun _ => ⟨rfl, rfl⟩) (fun _ => trivial) hb hc e
  case EventReport =>
    rw [PduKind.unconditional_sent .EventReport rfl, PduKind.unconditional_sent .EventReport rfl] at *
    exact datums_told EventReportPdu.fixed_datum_records EventReportPdu.variable_datum_records
      (fun x l l' => ({ x with fixed_datum_records := l, variable_datum_records := l' } : EventReportPdu))
      EventReportPdu.number_of_fixed_datum_records EventReportPdu.number_of_variable_datum_records (fun _ => rfl) (fun _ => rfl)
      (fun _ => ⟨rfl, rfl⟩) (fun _ => trivial) hb hc e
  case Comment =>
    rw [PduKind.unconditional_sent .Comment rfl, PduKind.unconditional_sent .Comment rfl] at *
    exact datums_told CommentPdu.fixed_datum_records CommentPdu.variable_datum_records
      (fun x l l' => ({ x with fixed_datum_records := l, variable_datum_records := l' } : CommentPdu))
      CommentPdu.number_of_fixed_datum_records CommentPdu.number_of_variable_datum_records (fun _ => rfl) (fun _ => rfl)
      (fun _ => ⟨rfl, rfl⟩) (fun _ => trivial) hb hc e
  case ActionRequestReliable =>
    rw [PduKind.unconditional_sent .ActionRequestReliable rfl, PduKind.unconditional_sent .ActionRequestReliable rfl] at *
    exact datums_told ActionRequestReliablePdu.fixed_datum_records ActionRequestReliablePdu.variable_datum_records
      (fun x l l' => ({ x with fixed_datum_records := l, variable_datum_records := l' } : ActionRequestReliablePdu))
      ActionRequestReliablePdu.number_of_fixed_datum_records ActionRequestReliablePdu.number_of_variable_datum_records (fun _ => rfl) (fun _ => rfl)
      (fun _ => ⟨rfl, rfl⟩) (fun _ => trivial) hb hc e
  case ActionResponseReliable =>
    rw [PduKind.unconditional_sent .ActionResponseReliable rfl, PduKind.unconditional_sent .ActionResponseReliable rfl] at *
    exact datums_told ActionResponseReliablePdu.fixed_datum_records ActionResponseReliablePdu.variable_datum_records
      (fun x l l' => ({ x with fixed_datum_records := l, variable_datum_records := l' } : ActionResponseReliablePdu))
      ActionResponseReliablePdu.number_of_fixed_datum_records ActionResponseReliablePdu.number_of_variable_datum_records (fun _ => rfl) (fun _ => rfl)
      (fun _ => ⟨rfl, rfl⟩) (fun _ => trivial) hb hc e
  case SetDataReliable =>
    rw [PduKind.unconditional_sent .SetDataReliable rfl, PduKind.unconditional_sent .SetDataReliable rfl] at *
    exact datums_told SetDataReliablePdu.fixed_datum_records SetDataReliablePdu.variable_datum_records
      (fun x l l' => ({ x with fixed_datum_records := l, variable_datum_records := l' } : SetDataReliablePdu))
      SetDataReliablePdu.number_of_fixed_datum_records SetDataReliablePdu.number_of_variable_datum_records (fun _ => rfl) (fun _ => rfl)
      (fun _ => ⟨rfl, rfl⟩) (fun _ => trivial) hb hc e
  case DataReliable =>
    rw [PduKind.unconditional_sent .DataReliable rfl, PduKind.unconditional_sent .DataReliable rfl] at *
    exact datums_told DataReliablePdu.fixed_datum_records DataReliablePdu.variable_datum_records
      (fun x l l' => ({ x with fixed_datum_records := l, variable_datum_records := l' } : DataReliablePdu))
      DataReliablePdu.number_of_fixed_datum_records DataReliablePdu.number_of_variable_datum_records (fun _ => rfl) (fun _ => rfl)
      (fun _ => ⟨rfl, rfl⟩) (fun _ => trivial) hb hc e
  case EventReportReliable =>
    rw [PduKind.unconditional_sent .EventReportReliable rfl, PduKind.unconditional_sent .EventReportReliable rfl] at *
    exact datums_told EventReportReliablePdu.fixed_datum_records EventReportReliablePdu.variable_datum_records
      (fun x l l' => ({ x with fixed_datum_records := l, variable_datum_records := l' } : EventReportReliablePdu))
      EventReportReliablePdu.number_of_fixed_datum_records EventReportReliablePdu.number_of_variable_datum_records (fun _ => rfl) (fun _ => rfl)
      (fun _ => ⟨rfl, rfl⟩) (fun _ => trivial) hb hc e
  case CommentReliable =>
    rw [PduKind.unconditional_sent .CommentReliable rfl, PduKind.unconditional_sent .CommentReliable rfl] at *
    exact datums_told CommentReliablePdu.fixed_datum_records CommentReliablePdu.variable_datum_records
      (fun x l l' => ({ x with fixed_datum_records := l, variable_datum_records := l' } : CommentReliablePdu))
      CommentReliablePdu.number_of_fixed_datum_records CommentReliablePdu.number_of_variable_datum_records (fun _ => rfl) (fun _ => rfl)
      (fun _ => ⟨rfl, rfl⟩) (fun _ => trivial) hb hc e
  case SupplementalEmission =>
    rw [PduKind.unconditional_sent .SupplementalEmission rfl, PduKind.unconditional_sent .SupplementalEmission rfl] at *
    exact two_told told_exact told_exact SupplementalEmissionPdu.propulsion_system_data SupplementalEmissionPdu.vectoring_nozzle_system_data
      (fun x l l' => ({ x with propulsion_system_data := l, vectoring_nozzle_system_data := l' } : SupplementalEmissionPdu))
      (fun x => x.number_of_propulsion_systems.toNat) (fun x => x.number_of_vectoring_nozzle_systems.toNat) (fun _ => rfl) (fun _ => rfl)
      (fun _ => ⟨rfl, rfl⟩) trivial trivial hb hc (fun _ _ => trivial) (fun _ _ => trivial) (fun _ _ => trivial) (fun _ _ => trivial) e
  case MinefieldState =>
    rw [PduKind.unconditional_sent .MinefieldState rfl, PduKind.unconditional_sent .MinefieldState rfl] at *
    exact two_told told_exact told_exact MinefieldStatePdu.perimeter_points MinefieldStatePdu.mine_type
      (fun x l l' => ({ x with perimeter_points := l, mine_type := l' } : MinefieldStatePdu))
      (fun x => x.number_of_perimeter_points.toNat) (fun x => x.number_of_mine_types.toNat) (fun _ => rfl) (fun _ => rfl)
      (fun _ => ⟨rfl, rfl⟩) trivial trivial hb hc (fun _ _ => trivial) (fun _ _ => trivial) (fun _ _ => trivial) (fun _ _ => trivial) e
  case MinefieldQuery =>
    rw [PduKind.unconditional_sent .MinefieldQuery rfl, PduKind.unconditional_sent .MinefieldQuery rfl] at *
    exact two_told told_exact told_exact MinefieldQueryPdu.requested_perimeter_points MinefieldQueryPdu.sensor_types
      (fun x l l' => ({ x with requested_perimeter_points := l, sensor_types := l' } : MinefieldQueryPdu))
      (fun x => x.number_of_perimeter_points.toNat) (fun x => x.number_of_sensor_types.toNat) (fun _ => rfl) (fun _ => rfl)
      (fun _ => ⟨rfl, rfl⟩) trivial trivial hb hc (fun _ _ => trivial) (fun _ _ => trivial) (fun _ _ => trivial) (fun _ _ => trivial) e
  case DataQueryReliable =>
    rw [PduKind.unconditional_sent .DataQueryReliable rfl, PduKind.unconditional_sent .DataQueryReliable rfl] at *
    exact two_told told_exact told_exact DataQueryReliablePdu.fixed_datum_ids DataQueryReliablePdu.variable_datum_ids
      (fun x l l' => ({ x with fixed_datum_ids := l, variable_datum_ids := l' } : DataQueryReliablePdu))
      (fun x => x.number_of_fixed_datum_records.toNat) (fun x => x.number_of_variable_datum_records.toNat) (fun _ => rfl) (fun _ => rfl)
      (fun _ => ⟨rfl, rfl⟩) trivial trivial hb hc (fun _ _ => trivial) (fun _ _ => trivial) (fun _ _ => trivial) (fun _ _ => trivial) e
  case GriddedData =>
    rw [PduKind.unconditional_sent .GriddedData rfl, PduKind.unconditional_sent .GriddedData rfl] at *
    exact two_told GridAxisDescriptor.told GridDataRecord.told GriddedDataPdu.grid_axis_descriptors GriddedDataPdu.grid_data_list
      (fun x l l' => ({ x with grid_axis_descriptors := l, grid_data_list := l' } : GriddedDataPdu))
      (fun x => x.number_of_grid_axes.toNat) (fun x => x.vector_dimension.toNat) (fun _ => rfl) (fun _ => rfl)
      (fun _ => ⟨rfl, rfl⟩) trivial trivial ⟨hb.1, hb.2.2.1⟩ ⟨hc.1, hc.2.2.1⟩ hb.2.1 hc.2.1 hb.2.2.2 hc.2.2.2 e
  case ElectromagneticEmissions =>
    exact one_told EmissionSystem.told ElectromagneticEmissionsPdu.systems
      (fun x l => ({ x with systems := l } : ElectromagneticEmissionsPdu))
      (fun x => x.number_of_systems.toNat) (fun _ => rfl) (fun _ => rfl) (fun _ => rfl) trivial trivial hb.1 hc.1 hb.2 hc.2 e
  case Attribute =>
    exact one_told AttributeRecordSet.told AttributePdu.attribute_record_sets
      (fun x l => ({ x with attribute_record_sets := l } : AttributePdu))
      (fun x => x.number_of_attribute_record_sets.toNat) (fun _ => rfl) (fun _ => rfl) (fun _ => rfl) trivial trivial hb.1 hc.1 hb.2 hc.2 e
  case UnderwaterAcoustic =>
    obtain ⟨h1, h2, h3⟩ := hb
    obtain ⟨g1, g2, g3⟩ := hc
    exact UnderwaterAcousticPdu.told ⟨h1, h2, h3⟩ ⟨g1, g2, g3⟩ e
  case EntityState => exact EntityStatePdu.told hb hc e
  case AggregateState =>
    rw [PduKind.sent_id_all .AggregateState rfl rfl, PduKind.sent_id_all .AggregateState rfl rfl] at *
    exact AggregateStatePdu.told hb hc e
  case ArealObjectState => exact ArealObjectStatePdu.told hb hc e
  case MinefieldData => exact MinefieldDataPdu.told hb hc e
  case Transmitter =>
    exact TransmitterPdu.told ⟨hb, TransmitterPdu.truthful_decodable hb⟩ ⟨hc, TransmitterPdu.truthful_decodable hc⟩ e
  case TransferOwnership =>
    have h : ∀ x : TransferOwnershipPdu, x.record_information.truthful → decodable (sent x) := by
      intro x hx
      show decodable (sent x.record_information)
      rw [RecordSpecification.sent_truthful hx]
      exact hx
    exact body_told (B := TransferOwnershipPdu) (h b hb) (h c hc) e
  case SetRecordReliable =>
    have h : ∀ x : SetRecordReliablePdu, x.record_sets.truthful → decodable (sent x) := by
      intro x hx
      show decodable (sent x.record_sets)
      rw [RecordSpecification.sent_truthful hx]
      exact hx
    exact body_told (B := SetRecordReliablePdu) (h b hb) (h c hc) e
  case InformationOperationsReport =>
    exact body_told (B := InformationOperationsReportPdu) (x := sent b) (y := sent c) hb hc e
  case InformationOperationsAction =>
    exact body_told (B := InformationOperationsActionPdu) (x := sent b) (y := sent c) hb hc e
  all_goals exact absurd hk (by decide)

end Dis
