import Verif.Proofs.Yields
/-
The entity state PDU's decoder and the aggregate state PDU's decoder, exactly.
-/
namespace Dis

/-- `g` takes exactly `n` octets: it panics when fewer remain and succeeds otherwise (its value may
depend on anything). -/
def Sized {α : Type} (g : Get α) (n : Nat) : Prop :=
  ∀ prof b, (b.length < n → g prof b = .error .bufferUnderflow) ∧
    (n ≤ b.length → ∃ a, g prof b = .ok (a, b.drop n))

theorem Fixed.sized {α : Type} {g : Get α} {n : Nat} (h : Fixed g n) : Sized g n :=
  fun prof _ => ⟨h.run_short prof, h.run_long prof⟩

theorem Sized.remaining : Sized remaining 0 := fun _ b => ⟨fun h => by omega, fun _ => ⟨b.length, rfl⟩⟩

theorem Sized.bind {α β : Type} {g : Get α} {f : α → Get β} {n m : Nat} (hg : Sized g n)
    (hf : ∀ a, Sized (f a) m) : Sized (g >>= f) (n + m) := by
  intro prof b
  refine ⟨fun hl => ?_, fun hl => ?_⟩
  · rw [M.bind_run]
    by_cases h : b.length < n
    · rw [(hg prof b).1 h]
    · obtain ⟨a, e⟩ := (hg prof b).2 (by omega)
      rw [e]
      exact ((hf a) prof _).1 (by rw [List.length_drop]; omega)
  · obtain ⟨a, e⟩ := (hg prof b).2 (by omega)
    obtain ⟨c, e'⟩ := ((hf a) prof (b.drop n)).2 (by rw [List.length_drop]; omega)
    exact ⟨c, by rw [M.bind_run, e]; show f a prof _ = _; rw [e', List.drop_drop]⟩

theorem Sized.congr {α : Type} {g : Get α} {n m : Nat} (h : Sized g n) (e : n = m) : Sized g m := e ▸ h

theorem EntityMarking.sized : Sized EntityMarking.deserialize 1 :=
  Sized.congr (Sized.bind (EnumSpec.fixed EntityMarkingCharacterSet.spec).sized fun _ =>
    Sized.bind Sized.remaining fun _ => (Fixed.ret _).sized) rfl

theorem EntityStatePdu.sized : Sized EntityStatePdu.deserializeBody 121 := Sized.congr (
    Sized.bind (FixedDec.fixed).sized fun _ =>
    Sized.bind (FixedDec.fixed).sized fun _ =>
    Sized.bind (FixedDec.fixed).sized fun _ =>
    Sized.bind (FixedDec.fixed).sized fun _ =>
    Sized.bind (FixedDec.fixed).sized fun _ =>
    Sized.bind (FixedDec.fixed).sized fun _ =>
    Sized.bind (FixedDec.fixed).sized fun _ =>
    Sized.bind (FixedDec.fixed).sized fun _ =>
    Sized.bind (FixedDec.fixed).sized fun _ =>
    Sized.bind (FixedDec.fixed).sized fun _ =>
    Sized.bind EntityMarking.sized fun _ =>
    Sized.bind (FixedDec.fixed).sized fun _ =>
    Sized.bind (FixedDec.fixed).sized fun _ =>
    (Fixed.ret _).sized) rfl

/-- Given `w` followed by exactly `rest`, `g` returns `a` and leaves `rest'`. -/
def ReadsAt {α : Type} (g : Get α) (b : Bytes) (a : α) (b' : Bytes) : Prop :=
  ∀ prof, g prof b = .ok (a, b')

theorem Reads.at {α : Type} {g : Get α} {w : Bytes} {a : α} (h : Reads g w a) (rest : Bytes) :
    ReadsAt g (w ++ rest) a rest := fun prof => h prof rest

theorem ReadsAt.bind {α β : Type} {g : Get α} {f : α → Get β} {b b' b'' : Bytes} {a : α} {c : β}
    (hg : ReadsAt g b a b') (hf : ReadsAt (f a) b' c b'') : ReadsAt (g >>= f) b c b'' := by
  intro prof
  rw [M.bind_run, hg prof]
  exact hf prof

theorem ReadsAt.ret {α : Type} (a : α) (b : Bytes) : ReadsAt (pure a) b a b := fun _ => rfl

theorem EntityMarking.readsAt (cs : EntityMarkingCharacterSet) (r : Bytes) :
    ReadsAt (deserialize_field : Get EntityMarking) (wire cs ++ r) ⟨cs, toString r.length⟩ r :=
  ReadsAt.bind (Reads.at (EnumSpec.reads cs) r) <|
  ReadsAt.bind (b' := r) (a := r.length) (fun _ => rfl) (ReadsAt.ret _ _)

/-- An enumeration's decoder, on the octets of any number. -/
theorem EnumSpec.readsAt_num (s : EnumSpec) (n : Nat) (hn : n < 256 ^ s.repr.octets) (r : Bytes) :
    ReadsAt s.deserialize (octets s.repr.octets n ++ r) (s.ofCode n) r := by
  intro prof
  have h1 := Reads.be s.repr.octets n s.ofCode hn prof r
  rw [EnumSpec.deserialize_eq]
  exact h1

/-- The octets of an entity state PDU before its marking. -/
def EntityStatePdu.front (x : EntityStatePdu) : Bytes :=
  wire x.entity_id ▹ wire x.force_id ▹ wire x.number_of_articulation_parameters ▹ wire x.entity_type ▹
  wire x.alternative_entity_type ▹ wire x.entity_linear_velocity ▹ wire x.entity_location ▹
  wire x.entity_orientation ▹ wire x.entity_appearance ▹ wire x.dead_reckoning_parameters

theorem EntityStatePdu.readsAt (x : EntityStatePdu) (n : Nat) (hn : n < 4294967296) (r : Bytes) :
    ReadsAt EntityStatePdu.deserializeBody
      (x.front ++ wire x.entity_marking.entity_marking_character_set ++ (octets 4 n ++ r))
      { x with entity_marking := ⟨x.entity_marking.entity_marking_character_set, toString (4 + r.length)⟩
               entity_capabilities := EntityCapabilities.spec.ofCode n
               articulation_parameter := [] } r := by
  have hc : (octets 4 n ++ r).length = 4 + r.length := by
    rw [List.length_append, octets_length]
  unfold EntityStatePdu.front
  simp only [List.append_assoc]
  refine ReadsAt.bind (Reads.at (reads_exact x.entity_id) _) <|
    ReadsAt.bind (Reads.at (reads_exact x.force_id) _) <|
    ReadsAt.bind (Reads.at (reads_exact x.number_of_articulation_parameters) _) <|
    ReadsAt.bind (Reads.at (reads_exact x.entity_type) _) <|
    ReadsAt.bind (Reads.at (reads_exact x.alternative_entity_type) _) <|
    ReadsAt.bind (Reads.at (reads_exact x.entity_linear_velocity) _) <|
    ReadsAt.bind (Reads.at (reads_exact x.entity_location) _) <|
    ReadsAt.bind (Reads.at (reads_exact x.entity_orientation) _) <|
    ReadsAt.bind (Reads.at (reads_exact x.entity_appearance) _) <|
    ReadsAt.bind (Reads.at (reads_exact x.dead_reckoning_parameters) _) <|
    ReadsAt.bind (EntityMarking.readsAt x.entity_marking.entity_marking_character_set _) ?_
  rw [hc]
  exact ReadsAt.bind (EnumSpec.readsAt_num EntityCapabilities.spec n hn r) <|
    ReadsAt.bind (ReadsAt.ret _ _) (ReadsAt.ret _ _)

/-- The octets of an aggregate state PDU before its lists. -/
def AggregateStatePdu.front (x : AggregateStatePdu) : Bytes :=
  wire x.aggregate_id ▹ wire x.force_id ▹ wire x.aggregate_state ▹ wire x.aggregate_type ▹
  wire x.formation ▹ wire x.aggregate_marking ▹ wire x.dimensions ▹ wire x.orientation ▹
  wire x.center_of_mass ▹ wire x.velocity ▹ wire x.number_of_dis_aggregates ▹
  wire x.number_of_dis_entities ▹ wire x.number_of_silent_aggregate_types ▹
  wire x.number_of_silent_entity_types
/-- The octets of the lists in its middle. -/
def AggregateStatePdu.middle (x : AggregateStatePdu) : Bytes :=
  wire x.aggregate_id_list ▹ wire x.entity_id_list ▹ wire x.padding ▹
  wire x.silent_aggregate_system_list ▹ wire x.silent_entity_system_list

theorem AggregateStatePdu.wire_eq (x : AggregateStatePdu) :
    wire x = x.front ++ (x.middle ++ (wire x.number_of_variable_datum_records ++
      wire x.variable_datum_list)) := by
  unfold AggregateStatePdu.front AggregateStatePdu.middle
  simp only [List.append_assoc]
  rfl

theorem AggregateStatePdu.readsAt (x : AggregateStatePdu) (n : UInt32) (r : Bytes) :
    ReadsAt AggregateStatePdu.deserializeBody (x.front ++ (wire n ++ r))
      { x with aggregate_id_list := [], entity_id_list := [], padding := []
               silent_aggregate_system_list := [], silent_entity_system_list := []
               number_of_variable_datum_records := n, variable_datum_list := [] } r := by
  unfold AggregateStatePdu.front
  simp only [List.append_assoc]
  exact ReadsAt.bind (Reads.at (reads_exact x.aggregate_id) _) <|
    ReadsAt.bind (Reads.at (reads_exact x.force_id) _) <|
    ReadsAt.bind (Reads.at (reads_exact x.aggregate_state) _) <|
    ReadsAt.bind (Reads.at (reads_exact x.aggregate_type) _) <|
    ReadsAt.bind (Reads.at (reads_exact x.formation) _) <|
    ReadsAt.bind (Reads.at (reads_exact x.aggregate_marking) _) <|
    ReadsAt.bind (Reads.at (reads_exact x.dimensions) _) <|
    ReadsAt.bind (Reads.at (reads_exact x.orientation) _) <|
    ReadsAt.bind (Reads.at (reads_exact x.center_of_mass) _) <|
    ReadsAt.bind (Reads.at (reads_exact x.velocity) _) <|
    ReadsAt.bind (Reads.at (reads_exact x.number_of_dis_aggregates) _) <|
    ReadsAt.bind (Reads.at (reads_exact x.number_of_dis_entities) _) <|
    ReadsAt.bind (Reads.at (reads_exact x.number_of_silent_aggregate_types) _) <|
    ReadsAt.bind (Reads.at (reads_exact x.number_of_silent_entity_types) _) <|
    ReadsAt.bind (ReadsAt.ret _ _) <|
    ReadsAt.bind (ReadsAt.ret _ _) <|
    ReadsAt.bind (ReadsAt.ret _ _) <|
    ReadsAt.bind (ReadsAt.ret _ _) <|
    ReadsAt.bind (ReadsAt.ret _ _) <|
    ReadsAt.bind (Reads.at (reads_exact n) _) <|
    ReadsAt.bind (ReadsAt.ret _ _) (ReadsAt.ret _ _)

end Dis
