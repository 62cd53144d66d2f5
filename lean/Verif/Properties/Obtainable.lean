import Verif.Model.Visibility
import Verif.Spec.Buildable
import Verif.Properties.DecodeVariable
import Verif.Properties.Transmitter
import Verif.Properties.Fresh
import Verif.Properties.Crash
/-
C57: what a program that uses the crate can come by.
-/
namespace Dis

/-! ### The two types whose content is private -/

theorem ModulationParameters.deserialize_len {n : UInt8} {prof : Profile} {b : Bytes} {x : ModulationParameters}
    {rest : Bytes} (h : ModulationParameters.deserialize n prof b = .ok (some x, rest)) :
    x.record_specific_fields.length ≤ 255 := by
  unfold ModulationParameters.deserialize at h
  split at h
  · cases h
  · rw [M.bind_run] at h
    cases hg : getN getU8 n.toNat prof b with
    | error e => rw [hg] at h; cases h
    | ok r =>
      rw [hg] at h
      cases h
      have := (Yields.n (Yields.top (prof := prof) getU8) n.toNat b r.1 r.2 hg).1
      have := n.toNat_lt
      show r.1.length ≤ 255
      omega

theorem ModulationParameters.withLen_len {n : Nat} {prof : Profile} {b : Bytes} {x : ModulationParameters} {rest : Bytes}
    (h : (deserialize_with_len n : Get ModulationParameters) prof b = .ok (x, rest)) :
    x.record_specific_fields.length ≤ 255 := by
  have h : (if n < 256 then do return (← ModulationParameters.deserialize (UInt8.ofNat n)).getD dflt
    else M.panic .expectFailed : Get ModulationParameters) prof b = .ok (x, rest) := h
  split at h
  · rw [M.bind_run] at h
    cases hg : ModulationParameters.deserialize (UInt8.ofNat n) prof b with
    | error e => rw [hg] at h; cases h
    | ok r =>
      rw [hg] at h
      obtain ⟨o, r⟩ := r
      cases h
      cases o with
      | none => exact Nat.zero_le _
      | some y => exact ModulationParameters.deserialize_len hg
  · cases h

theorem AntennaPattern.deserialize_len {n : UInt16} {prof : Profile} {b : Bytes} {x : AntennaPattern}
    {rest : Bytes} (h : AntennaPattern.deserialize n prof b = .ok (some x, rest)) :
    x.record_specific_fields.length ≤ 65535 := by
  unfold AntennaPattern.deserialize at h
  split at h
  · cases h
  · rw [M.bind_run] at h
    cases hg : getN getU8 n.toNat prof b with
    | error e => rw [hg] at h; cases h
    | ok r =>
      rw [hg] at h
      cases h
      have := (Yields.n (Yields.top (prof := prof) getU8) n.toNat b r.1 r.2 hg).1
      have := n.toNat_lt
      show r.1.length ≤ 65535
      omega

theorem AntennaPattern.withLen_len {n : Nat} {prof : Profile} {b : Bytes} {x : AntennaPattern} {rest : Bytes}
    (h : (deserialize_with_len n : Get AntennaPattern) prof b = .ok (x, rest)) :
    x.record_specific_fields.length ≤ 65535 := by
  have h : (if n < 65536 then do return (← AntennaPattern.deserialize (UInt16.ofNat n)).getD dflt
    else M.panic .expectFailed : Get AntennaPattern) prof b = .ok (x, rest) := h
  split at h
  · rw [M.bind_run] at h
    cases hg : AntennaPattern.deserialize (UInt16.ofNat n) prof b with
    | error e => rw [hg] at h; cases h
    | ok r =>
      rw [hg] at h
      obtain ⟨o, r⟩ := r
      cases h
      cases o with
      | none => exact Nat.zero_le _
      | some y => exact AntennaPattern.deserialize_len hg
  · cases h

theorem optWithLen_some {α : Type} [FieldDeserializeWithLen α] {n : Nat} {prof : Profile} {b : Bytes} {x : α} {rest : Bytes}
    (h : (deserialize_with_len n : Get (Option α)) prof b = .ok (some x, rest)) :
    (deserialize_with_len n : Get α) prof b = .ok (x, rest) := by
  have h : (if n = 0 then pure none else do return some (← deserialize_with_len n) : Get (Option α)) prof b =
    .ok (some x, rest) := h
  split at h
  · cases h
  · rw [M.bind_run] at h
    cases hg : (deserialize_with_len n : Get α) prof b with
    | error e => rw [hg] at h; cases h
    | ok r => rw [hg] at h; cases h; rfl

theorem PduKind.body_yields (k : PduKind) {prof : Profile} {P : k.Body → Prop}
    (hy : Yields prof (PduBody.deserializeBody : Get k.Body) P) {hd : PduHeader} {b r : Bytes} {p : Pdu k.Body}
    (h : (Pdu.deserialize_without_header hd : Get (Except DISError (Pdu k.Body))) prof b = .ok (.ok p, r)) : P p.body := by
  unfold Pdu.deserialize_without_header at h
  rw [M.bind_run] at h
  cases hb : (PduBody.deserializeBody : Get k.Body) prof b with
  | error e => rw [hb] at h; cases h
  | ok v => rw [hb] at h; cases h; exact hy b v.1 v.2 hb

theorem TransmitterPdu.yields_small (prof : Profile) : Yields prof (PduBody.deserializeBody : Get TransmitterPdu)
    (fun x => (∀ m, x.modulation_parameters = some m → m.record_specific_fields.length ≤ 255) ∧ x.antenna_pattern = none) := by
  iterate 19 refine Yields.any fun _ => ?_
  refine Yields.bind (P := fun o : Option ModulationParameters => ∀ m, o = some m → m.record_specific_fields.length ≤ 255)
    ?_ fun _ h => ?_
  · intro b o r e m hm
    subst hm
    exact ModulationParameters.withLen_len (optWithLen_some e)
  refine Yields.bind (P := fun o => o = none) ?_ fun _ h1 => ?_
  · intro b o r e; cases e; rfl
  exact Yields.any fun _ => Yields.ret ⟨h, h1⟩

theorem AggregateStatePdu.yields_unpadded (prof : Profile) : Yields prof (PduBody.deserializeBody : Get AggregateStatePdu)
    (fun x => x.padding = []) := by
  show Yields prof AggregateStatePdu.deserializeBody _
  unfold AggregateStatePdu.deserializeBody
  repeat first
    | refine Yields.list ?_
    | refine Yields.any fun _ => ?_
  exact Yields.ret rfl

/-- The modulation parameters a program can come by are those of at most 255 octets, all of them. -/
theorem C57_modulation_parameters (x : ModulationParameters) :
    x.Obtainable ↔ x.record_specific_fields.length ≤ 255 := by
  constructor
  · intro h
    cases h with
    | new => exact Nat.zero_le _
    | default => exact Nat.zero_le _
    | deserialize h => exact ModulationParameters.deserialize_len h
    | deserializeField h => cases h; exact Nat.zero_le _
    | withLen h => exact ModulationParameters.withLen_len h
    | optWithLen h => exact ModulationParameters.withLen_len (optWithLen_some h)
    | ofPdu h hx => exact (PduKind.decoded_yields .Transmitter (TransmitterPdu.yields_small _) h).1 x hx
    | ofBody h hx => exact (PduKind.body_yields .Transmitter (TransmitterPdu.yields_small _) h).1 x hx
  · intro h
    obtain ⟨l⟩ := x
    cases l with
    | nil => exact .new
    | cons a l =>
      have h : l.length + 1 ≤ 255 := h
      have hn : (UInt8.ofNat (l.length + 1)).toNat = l.length + 1 :=
        UInt8.toNat_ofNat_of_lt' (by simp only [UInt8.size]; omega)
      refine .deserialize (n := UInt8.ofNat (l.length + 1)) (prof := ⟨true⟩) (b := a :: l) (rest := []) ?_
      unfold ModulationParameters.deserialize
      rw [if_neg (fun e => by rw [e] at hn; cases hn), M.bind_run,
        (reads_bytes (a :: l) (n := (UInt8.ofNat (l.length + 1)).toNat) hn).run]
      rfl

/-- The antenna patterns a program can come by are those of at most 65535 octets, all of them. -/
theorem C57_antenna_pattern (x : AntennaPattern) : x.Obtainable ↔ x.record_specific_fields.length ≤ 65535 := by
  constructor
  · intro h
    cases h with
    | new => exact Nat.zero_le _
    | default => exact Nat.zero_le _
    | deserialize h => exact AntennaPattern.deserialize_len h
    | deserializeField h => cases h; exact Nat.zero_le _
    | withLen h => exact AntennaPattern.withLen_len h
    | optWithLen h => exact AntennaPattern.withLen_len (optWithLen_some h)
  · intro h
    obtain ⟨l⟩ := x
    cases l with
    | nil => exact .new
    | cons a l =>
      have h : l.length + 1 ≤ 65535 := h
      have hn : (UInt16.ofNat (l.length + 1)).toNat = l.length + 1 :=
        UInt16.toNat_ofNat_of_lt' (by simp only [UInt16.size]; omega)
      refine .deserialize (n := UInt16.ofNat (l.length + 1)) (prof := ⟨true⟩) (b := a :: l) (rest := []) ?_
      unfold AntennaPattern.deserialize
      rw [if_neg (fun e => by rw [e] at hn; cases hn), M.bind_run,
        (reads_bytes (a :: l) (n := (UInt16.ofNat (l.length + 1)).toNat) hn).run]
      rfl

/-- The four other types with private fields, all of them padding, can be come by in full: every value is what its decoder
returns for some octets. -/
theorem C57_records :
    (∀ x : PduHeader, ∃ prof b rest, PduHeader.deserialize prof b = .ok (x, rest)) ∧
    (∀ x : LiveEntityPduHeader, ∃ prof b rest, LiveEntityPduHeader.deserialize prof b = .ok (x, rest)) ∧
    (∀ x : DirectedEnergyDamage, ∃ prof b rest, DirectedEnergyDamage.deserialize prof b = .ok (x, rest)) ∧
    ∀ x : LinearSegmentParameter, ∃ prof b rest, LinearSegmentParameter.deserialize prof b = .ok (x, rest) :=
  ⟨fun x => ⟨⟨true⟩, _, [], x.reads ⟨true⟩ []⟩, fun x => ⟨⟨true⟩, _, [], x.reads ⟨true⟩ []⟩,
    fun x => ⟨⟨true⟩, _, [], x.reads ⟨true⟩ []⟩, fun x => ⟨⟨true⟩, _, [], x.reads ⟨true⟩ []⟩⟩

/-! ### PDUs -/

theorem PduKind.obtain_kept (k : PduKind) (b : k.Body) (he : Dis.encodable b) (hl : 12 + PduBody.fieldsLen b < 65536)
    (hd : decodable (sent (PduBody.prep b))) : ∃ h, k.Obtainable ⟨h, kept (sent (PduBody.prep b))⟩ := by
  have hs := Pdu.serialize_of_encodable ⟨PduHeader.default 0, b⟩ he hl ⟨true⟩ []
  rw [List.append_assoc] at hs
  have := C12_survives_all_kinds k _ _ ⟨true⟩ [] _ hs hd ⟨true⟩ []
  exact ⟨_, .deserialize this⟩

theorem PduKind.assign_len (k : PduKind) (hk : k ≠ .AggregateState) (b : k.Body) :
    PduBody.fieldsLen (k.assign b PduBody.default) = PduBody.fieldsLen (PduBody.default : k.Body) := by
  cases k
  case AggregateState => exact absurd rfl hk
  all_goals rfl

theorem PduKind.assign_encodable (k : PduKind) (b : k.Body) : Dis.encodable (k.assign b PduBody.default) := by
  cases h : k.hasRecordSets with
  | false => exact k.encodable h _
  | true =>
    cases k <;> first
      | (exact absurd h (by decide))
      | (exact fun x hx => nomatch hx)

theorem PduKind.assign_decodable (k : PduKind) (hk : k ≠ .AggregateState) (he : k ≠ .EntityState) (b : k.Body) :
    decodable (sent (PduBody.prep (k.assign b PduBody.default))) := by
  cases k
  case AggregateState => exact absurd rfl hk
  case EntityState => exact absurd rfl he
  case TransferOwnership => exact ⟨rfl, fun _ h => nomatch h⟩
  case SetRecordReliable => exact ⟨rfl, fun _ h => nomatch h⟩
  case InformationOperationsReport => exact ⟨rfl, fun _ h => nomatch h⟩
  case InformationOperationsAction => exact ⟨rfl, fun _ h => nomatch h⟩
  case Transmitter => exact ⟨rfl, fun h => nomatch h⟩
  all_goals first | trivial | exact onlyFlags_zero _

theorem PduKind.assign_back (k : PduKind) (b : k.Body) :
    k.assign (kept (sent (PduBody.prep (k.assign b PduBody.default)))) b = b := by
  cases k <;> rfl

theorem PduKind.buildable_assign (k : PduKind) (b c : k.Body) (hb : k.buildable b) (hc : k.Assignable c) :
    k.buildable (k.assign b c) := by
  cases k
  case Transmitter =>
    exact ⟨fun m hm => (C57_modulation_parameters m).mp (hc.1 m hm), fun a ha => (C57_antenna_pattern a).mp (hc.2 a ha)⟩
  case AggregateState => exact hb
  all_goals trivial

theorem PduKind.buildable_assignable (k : PduKind) (b : k.Body) (hb : k.buildable b) : k.Assignable b := by
  cases k
  case Transmitter =>
    exact ⟨fun m hm => (C57_modulation_parameters m).mpr (hb.1 m hm), fun a ha => (C57_antenna_pattern a).mpr (hb.2 a ha)⟩
  all_goals trivial

theorem PduKind.buildable_default (k : PduKind) : k.buildable PduBody.default := by
  cases k
  case Transmitter => exact ⟨fun _ h => (nomatch h), fun _ h => (nomatch h)⟩
  case AggregateState => rfl
  all_goals trivial

theorem PduKind.buildable_prep (k : PduKind) (b : k.Body) (hb : k.buildable b) : k.buildable (PduBody.prep b) := by
  cases k
  case Transmitter => exact hb
  case AggregateState => exact hb
  all_goals trivial

theorem PduKind.yields_buildable (k : PduKind) (prof : Profile) :
    Yields prof (PduBody.deserializeBody : Get k.Body) k.buildable := by
  cases k
  case Transmitter =>
    exact (TransmitterPdu.yields_small prof).mono fun x h => ⟨h.1, fun a ha => by rw [h.2] at ha; cases ha⟩
  case AggregateState => exact AggregateStatePdu.yields_unpadded prof
  all_goals exact Yields.top _

/-- The PDUs that a program using the crate can come by, by whatever sequence of calls and assignments: of 64 kinds all;
transmitter PDUs whose modulation parameters have at most 255 octets and whose antenna pattern at most 65535; aggregate state
PDUs without padding. -/
theorem C57_pdus (k : PduKind) (p : Pdu k.Body) : k.Obtainable p ↔ k.buildable p.body := by
  constructor
  · intro h
    induction h with
    | new now => exact k.buildable_default
    | default now => exact k.buildable_default
    | deserialize h => exact k.decoded_yields (k.yields_buildable _) h
    | deserializeBody h => exact k.body_yields (k.yields_buildable _) h
    | assign c _ hc ih => exact k.buildable_assign _ c ih hc
    | headerMut hd _ ih => exact ih
    | finalize _ ih => exact ih
    | @serialize p _ ih =>
      rw [Pdu.assigned_eq]
      split <;> exact k.buildable_prep _ ih
  · intro h
    obtain ⟨hd, b⟩ := p
    have hc : k.Assignable b := k.buildable_assignable b h
    suffices hx : ∃ q, k.Obtainable q ∧ k.assign q.body b = b by
      obtain ⟨q, hq, e⟩ := hx
      have := PduKind.Obtainable.headerMut hd (.assign b hq hc)
      rwa [e] at this
    by_cases ha : k = .AggregateState
    · subst ha
      refine ⟨_, .new 0, ?_⟩
      have h : (b : AggregateStatePdu).padding = [] := h
      show AggregateStatePdu.mk _ _ _ _ _ _ _ _ _ _ _ _ _ _ _ _ [] _ _ _ _ = b
      rw [← h]
    · by_cases he : k = .EntityState
      · subst he
        exact ⟨_, .new 0, rfl⟩
      · obtain ⟨hd', hq⟩ := k.obtain_kept (k.assign b PduBody.default) (k.assign_encodable b)
          (by rw [k.assign_len ha]; have := k.default_len; have := k.ieeeOctets_lt; omega) (k.assign_decodable ha he b)
        exact ⟨_, hq, k.assign_back b⟩

/-- What none can come by: a transmitter PDU with 256 octets of modulation parameters, an aggregate state PDU with padding. -/
example : ¬ PduKind.Obtainable .Transmitter (⟨PduHeader.default 0, { (PduBody.default : TransmitterPdu) with
      modulation_parameters := some ⟨List.replicate 256 7⟩ }⟩ : Pdu TransmitterPdu) ∧
    ¬ PduKind.Obtainable .AggregateState (⟨PduHeader.default 0, { (PduBody.default : AggregateStatePdu) with
      padding := [0, 0] }⟩ : Pdu AggregateStatePdu) := by
  constructor
  · rw [C57_pdus]
    intro h
    have h : (List.replicate 256 (7 : UInt8)).length ≤ 255 := h.1 _ rfl
    rw [List.length_replicate] at h
    omega
  · rw [C57_pdus]
    intro h
    cases (h : ([0, 0] : Bytes) = [])

/-- What one can: modulation parameters of three octets and a padding that is not zero. -/
example : PduKind.Obtainable .Transmitter (⟨PduHeader.default 0, { (PduBody.default : TransmitterPdu) with
      modulation_parameters := some ⟨[1, 2, 3]⟩, padding := 5 }⟩ : Pdu TransmitterPdu) := by
  rw [C57_pdus]
  exact ⟨fun m h => by cases h; decide, fun a h => (nomatch h)⟩

/-- So `serialize`, which transmits the length 0 for more than 255 octets of modulation parameters (C29), never does so to a
PDU that a program has come by: the length transmitted is the number of octets, and the parameters are received, or none
if they are empty. -/
theorem C57_parameters_never_dropped (p : Pdu TransmitterPdu) (hp : PduKind.Obtainable .Transmitter p)
    (hl : declaredOctets p ≤ 65535) (prof : Profile) (buf : Bytes) :
    ∃ q w, p.serialize prof buf = .ok ((q, .ok ()), buf ++ w) ∧
      q.body.modulation_parameter_length.toNat = (modulationOctets p.body).length ∧
      ∀ prof' rest, ∃ x, decodeAs TransmitterPdu prof' (w ++ rest) =
        .ok (.ok x, antennaOctets p.body ++ wire p.body.variable_transmitter_parameters ++ rest) ∧
        x.body.modulation_parameters =
          if modulationOctets p.body = [] then none else some ⟨modulationOctets p.body⟩ := by
  have hb : PduKind.buildable .Transmitter p.body := (C57_pdus .Transmitter p).mp hp
  by_cases he : p.body.modulation_parameters = some ⟨[]⟩
  · obtain ⟨q, w, h1, h2, h3, h4⟩ := C29_empty_parameters p hl he prof buf
    have hm : modulationOctets p.body = [] := by unfold modulationOctets; rw [he]
    refine ⟨q, w, h1, by rw [h2, hm]; rfl, fun prof' rest => ?_⟩
    obtain ⟨x, h5, h6⟩ := h4 prof' rest
    exact ⟨x, h5, by rw [h6, if_pos hm]⟩
  · have hn : (modulationOctets p.body).length ≤ 255 := by
      unfold modulationOctets
      cases hm : p.body.modulation_parameters with
      | none => exact Nat.zero_le _
      | some m => exact hb.1 m hm
    obtain ⟨q, w, h1, h2, h3, h4⟩ := C29_parameters p hl hn he prof buf
    refine ⟨q, w, h1, h3, fun prof' rest => ⟨_, h4 prof' rest, ?_⟩⟩
    show q.body.modulation_parameters = _
    rw [h2]
    show p.body.modulation_parameters = _
    unfold modulationOctets
    cases hm : p.body.modulation_parameters with
    | none => rfl
    | some m =>
      obtain ⟨l⟩ := m
      cases l with
      | nil => exact absurd hm he
      | cons a l => rfl

example := C57_parameters_never_dropped (⟨PduHeader.default 0, { (PduBody.default : TransmitterPdu) with
    modulation_parameters := some ⟨[1, 2, 3]⟩, padding := 5 }⟩ : Pdu TransmitterPdu)
  (by rw [C57_pdus]; exact ⟨fun m h => by cases h; decide, fun a h => (nomatch h)⟩) (by decide +kernel) ⟨true⟩ [9]

end Dis
