import Verif.Proofs.BuildsPdus
import Verif.Proofs.Needs
import Verif.Spec.FieldTable
import Verif.Properties.RoundTrip
import Verif.Properties.Timestamp
import Verif.Properties.Panics
/-
C56: builds with overflow checks (debug) and without (release) do the same.
-/
set_option maxRecDepth 8000
namespace Dis

instance {exact : Bool} {B : Type} [PduBody B] [Builds exact (PduBody.deserializeBody : Get B)] :
    Builds exact (Pdu.deserialize : Get (Except DISError (Pdu B))) := by
  unfold Pdu.deserialize; infer_instance
instance {exact : Bool} {B : Type} [PduBody B] [Builds exact (PduBody.deserializeBody : Get B)] (h : PduHeader) :
    Builds exact (Pdu.deserialize_without_header h : Get (Except DISError (Pdu B))) := by
  unfold Pdu.deserialize_without_header; infer_instance
instance {exact : Bool} {B : Type} [PduBody B] [∀ x : B, Builds exact (PduBody.serializeBody x)] (p : Pdu B) :
    Builds exact p.serialize := by
  unfold Pdu.serialize
  dsimp only
  split
  · infer_instance
  · builds

theorem Builds.eq {α : Type} (g : M α) [h : Builds true g] (prof prof' : Profile) (b : Bytes) :
    g prof b = g prof' b ∧ g.left prof b = g.left prof' b := by
  have key : g ⟨true⟩ b = g ⟨false⟩ b ∧ g.left ⟨true⟩ b = g.left ⟨false⟩ b := by
    rcases h.same b with ⟨he, _⟩ | ⟨h1, h2⟩
    · cases he
    · exact ⟨h1, by unfold M.left; rw [h2]⟩
  match prof, prof' with
  | ⟨true⟩, ⟨true⟩ => exact ⟨rfl, rfl⟩
  | ⟨true⟩, ⟨false⟩ => exact key
  | ⟨false⟩, ⟨true⟩ => exact ⟨key.1.symm, key.2.symm⟩
  | ⟨false⟩, ⟨false⟩ => exact ⟨rfl, rfl⟩

theorem Builds.or {α : Type} {exact : Bool} (g : M α) [h : Builds exact g] (b : Bytes) :
    g ⟨true⟩ b = .error .arithmeticOverflow ∨ (g ⟨true⟩ b = g ⟨false⟩ b ∧ g.left ⟨true⟩ b = g.left ⟨false⟩ b) := by
  rcases h.same b with ⟨_, h⟩ | ⟨h1, h2⟩
  · exact .inl h
  · exact .inr ⟨h1, by unfold M.left; rw [h2]⟩

theorem PduKind.buildsExact_eq {k : PduKind} (h : k ≠ .TransferOwnership ∧ k ≠ .SetRecordReliable) :
    k.buildsExact = true := by
  cases k
  case TransferOwnership => exact absurd rfl h.1
  case SetRecordReliable => exact absurd rfl h.2
  all_goals rfl

/-- Every kind but the two with record sets: `serialize` has the same result in both builds, and leaves the same buffer. -/
theorem C56_serialize (k : PduKind) (hk : k ≠ .TransferOwnership ∧ k ≠ .SetRecordReliable) (p : Pdu k.Body)
    (prof prof' : Profile) (buf : Bytes) :
    p.serialize prof buf = p.serialize prof' buf ∧ p.serialize.left prof buf = p.serialize.left prof' buf :=
  have (x : k.Body) : Builds true (PduBody.serializeBody x) := PduKind.buildsExact_eq hk ▸ k.builds_ser x
  Builds.eq _ prof prof' buf

example := C56_serialize .Signal (by decide) sampleSignal ⟨true⟩ ⟨false⟩ [9]

/-- ... and so has `deserialize`, with or without the header. -/
theorem C56_decode (k : PduKind) (hk : k ≠ .TransferOwnership ∧ k ≠ .SetRecordReliable) (prof prof' : Profile) (b : Bytes) :
    (k.decode prof b = k.decode prof' b ∧ k.decode.left prof b = k.decode.left prof' b) ∧
    ∀ hd, (Pdu.deserialize_without_header hd : Get (Except DISError (Pdu k.Body))) prof b =
        (Pdu.deserialize_without_header hd : Get (Except DISError (Pdu k.Body))) prof' b :=
  have : Builds true (PduBody.deserializeBody : Get k.Body) := PduKind.buildsExact_eq hk ▸ k.builds_de
  ⟨Builds.eq _ prof prof' b, fun _ => (Builds.eq _ prof prof' b).1⟩

/-- also for input that is too short -/
example := C56_decode .Signal (by decide) ⟨true⟩ ⟨false⟩ (sampleOctets.take 20)

/-- All kinds: unless the build with checks panics because of an overflow, both serialize alike and both decode alike. -/
theorem C56_unless_overflow (k : PduKind) (p : Pdu k.Body) (b : Bytes) :
    (p.serialize ⟨true⟩ b = .error .arithmeticOverflow ∨
      (p.serialize ⟨true⟩ b = p.serialize ⟨false⟩ b ∧ p.serialize.left ⟨true⟩ b = p.serialize.left ⟨false⟩ b)) ∧
    (k.decode ⟨true⟩ b = .error .arithmeticOverflow ∨
      (k.decode ⟨true⟩ b = k.decode ⟨false⟩ b ∧ k.decode.left ⟨true⟩ b = k.decode.left ⟨false⟩ b)) :=
  have := k.builds_ser
  have := k.builds_de
  ⟨Builds.or (exact := k.buildsExact) _ b, Builds.or (exact := k.buildsExact) _ b⟩

/-- The records by themselves, as methods and as fields. -/
theorem C56_records : ∀ r ∈ recordFields, r.name ≠ "RecordSpecification" → r.name ≠ "RecordSpecificationElement" →
    ∀ (x : r.Val) (prof prof' : Profile) (b : Bytes),
      r.ser x prof b = r.ser x prof' b ∧ r.fieldSer x prof b = r.fieldSer x prof' b ∧
      r.de prof b = r.de prof' b ∧ r.fieldDe prof b = r.fieldDe prof' b := by
  have h : ∀ r ∈ recordFields, r.name ≠ "RecordSpecification" → r.name ≠ "RecordSpecificationElement" →
      (∀ x, Builds true (r.ser x) ∧ Builds true (r.fieldSer x)) ∧ Builds true r.de ∧ Builds true r.fieldDe := by
    unfold recordFields
    repeat refine List.forall_mem_cons.mpr ⟨by
      first
      | exact fun _ _ => ⟨fun x => ⟨by dsimp only; infer_instance, by dsimp only; infer_instance⟩,
          by dsimp only; infer_instance, by dsimp only; infer_instance⟩
      | exact fun h => absurd rfl h
      | exact fun _ h => absurd rfl h, ?_⟩
    exact fun _ h => nomatch h
  intro r hr h1 h2 x prof prof' b
  obtain ⟨hs, hd, hf⟩ := h r hr h1 h2
  have := (hs x).1
  have := (hs x).2
  exact ⟨(Builds.eq _ prof prof' b).1, (Builds.eq _ prof prof' b).1, (Builds.eq _ prof prof' b).1,
    (Builds.eq _ prof prof' b).1⟩

/-- the entity identifiers -/
example : ∃ r ∈ recordFields, r.name = "EntityId" ∧ ∀ (x : r.Val) b, r.ser x ⟨true⟩ b = r.ser x ⟨false⟩ b := by
  have hm : ∃ r ∈ recordFields, r.name = "EntityId" := by decide +kernel
  obtain ⟨r, hr, hn⟩ := hm
  exact ⟨r, hr, hn, fun x b => (C56_records r hr (by rw [hn]; decide +kernel) (by rw [hn]; decide +kernel) x ⟨true⟩ ⟨false⟩ b).1⟩

/-- The headers, the look at a message's type, and the time stamp. -/
theorem C56_header (prof prof' : Profile) (b : Bytes) :
    (∀ h : PduHeader, h.serialize prof b = h.serialize prof' b) ∧
    PduHeader.deserialize prof b = PduHeader.deserialize prof' b ∧
    PduHeader.get_pdu_type prof b = PduHeader.get_pdu_type prof' b ∧
    (∀ h : LiveEntityPduHeader, h.serialize prof b = h.serialize prof' b) ∧
    LiveEntityPduHeader.deserialize prof b = LiveEntityPduHeader.deserialize prof' b ∧
    ∀ minute second nanosecond : UInt32, minute.toNat < 60 → second.toNat < 60 →
      calculate_dis_timestamp minute second nanosecond prof = calculate_dis_timestamp minute second nanosecond prof' := by
  refine ⟨fun h => (Builds.eq _ prof prof' b).1, (Builds.eq _ prof prof' b).1, ?_, fun h => (Builds.eq _ prof prof' b).1,
    (Builds.eq _ prof prof' b).1, fun m s n hm hs => ?_⟩
  · unfold PduHeader.get_pdu_type
    rw [(Builds.eq PduHeader.deserialize prof prof' _).1]
  · rw [calculate_eq hm hs prof, calculate_eq hm hs prof']

/-- a minute and a second of the clock -/
example := (C56_header ⟨true⟩ ⟨false⟩ sampleOctets).2.2.2.2.2 59 58 1999999999 (by decide) (by decide)

/-! ### The two kinds with record sets -/

/-- What a build without checks decodes to `a`, a build with checks decodes to `a` as well if all record sets in it fit 16
bits, and panics on if one does not. -/
def Tells {α : Type} (g : Get α) (sets : α → List RecordSpecificationElement) : Prop :=
  ∀ b a r, g ⟨false⟩ b = .ok (a, r) →
    ((∀ x ∈ sets a, x.record_length.toNat * x.record_count.toNat < 65536) → g ⟨true⟩ b = .ok (a, r)) ∧
    ((∃ x ∈ sets a, 65536 ≤ x.record_length.toNat * x.record_count.toNat) → g ⟨true⟩ b = .error .arithmeticOverflow)

theorem Tells.after {α β : Type} {g : Get α} {f : α → Get β} {sets : β → List RecordSpecificationElement}
    (hg : Builds true g) (hf : ∀ a, Tells (f a) sets) : Tells (g >>= f) sets := by
  intro b a r h
  rw [M.bind_run] at h ⊢
  rw [(Builds.eq g ⟨true⟩ ⟨false⟩ b).1]
  cases hr : g.run ⟨false⟩ b with
  | error e => rw [hr] at h; cases h
  | ok x =>
    rw [hr] at h
    exact hf x.1 x.2 a r h

theorem Tells.map {α β : Type} {g : Get α} {f : α → β} {s : α → List RecordSpecificationElement}
    {sets : β → List RecordSpecificationElement} (hg : Tells g s) (hs : ∀ a, sets (f a) = s a) :
    Tells (g >>= fun a => pure (f a)) sets := by
  intro b a r h
  rw [M.bind_run] at h ⊢
  cases hr : g.run ⟨false⟩ b with
  | error e => rw [hr] at h; cases h
  | ok x =>
    rw [hr] at h
    cases h
    obtain ⟨h1, h2⟩ := hg b x.1 x.2 hr
    refine ⟨fun ha => ?_, fun ha => ?_⟩
    · rw [hs] at ha
      rw [h1 ha]
      rfl
    · rw [hs] at ha
      rw [h2 ha]

theorem RecordSpecificationElement.tells : Tells RecordSpecificationElement.deserialize fun x => [x] := by
  refine Tells.after inferInstance fun id => Tells.after inferInstance fun sn => Tells.after inferInstance fun len =>
    Tells.after inferInstance fun count => ?_
  intro b a r h
  have h0 : mulU16 len count ⟨false⟩ b = .ok (len * count, b) := by simp [mulU16]
  rw [M.bind_run, h0] at h
  have key : a.record_length = len ∧ a.record_count = count := by
    change ((getN getU8 (len * count).toNat >>= _) : Get RecordSpecificationElement) ⟨false⟩ b = _ at h
    rw [M.bind_run] at h
    cases hr : (getN getU8 (len * count).toNat).run ⟨false⟩ b with
    | error e => rw [hr] at h; cases h
    | ok x => rw [hr] at h; cases h; exact ⟨rfl, rfl⟩
  rw [M.bind_run]
  refine ⟨fun ha => ?_, fun ha => ?_⟩
  · have ha := ha a (List.mem_singleton.mpr rfl)
    rw [key.1, key.2] at ha
    have h1 : mulU16 len count ⟨true⟩ b = .ok (len * count, b) := by
      simp only [mulU16]
      rw [if_neg (by omega)]
    rw [h1, ← h]
    exact (Builds.eq (_ : Get RecordSpecificationElement) ⟨true⟩ ⟨false⟩ b).1
  · obtain ⟨x, hx, ha⟩ := ha
    rw [List.mem_singleton.mp hx, key.1, key.2] at ha
    have h1 : mulU16 len count ⟨true⟩ b = .error .arithmeticOverflow := by
      simp only [mulU16]
      rw [if_pos ⟨trivial, ha⟩]
    rw [h1]

theorem Tells.many {g : Get RecordSpecificationElement} (hg : Tells g fun x => [x]) :
    (n : Nat) → Tells (getN g n) id
  | 0 => fun b a r h => by cases h; exact ⟨fun _ => rfl, fun ⟨_, hx, _⟩ => nomatch hx⟩
  | n + 1 => by
    intro b a r h
    change (g >>= fun x => getN g n >>= fun xs => pure (x :: xs)) ⟨false⟩ b = _ at h
    show (_ → (g >>= fun x => getN g n >>= fun xs => pure (x :: xs)) ⟨true⟩ b = _) ∧
      (_ → (g >>= fun x => getN g n >>= fun xs => pure (x :: xs)) ⟨true⟩ b = _)
    rw [M.bind_run] at h ⊢
    cases hr : g.run ⟨false⟩ b with
    | error e => rw [hr] at h; cases h
    | ok x =>
      rw [hr] at h
      change (getN g n >>= fun xs => pure (x.1 :: xs)) ⟨false⟩ x.2 = _ at h
      rw [M.bind_run] at h
      cases hs : (getN g n).run ⟨false⟩ x.2 with
      | error e => rw [hs] at h; cases h
      | ok y =>
        rw [hs] at h
        cases h
        obtain ⟨h1, h2⟩ := hg b x.1 x.2 hr
        obtain ⟨h3, h4⟩ := Tells.many hg n x.2 y.1 y.2 hs
        by_cases hx : x.1.record_length.toNat * x.1.record_count.toNat < 65536
        · rw [h1 (fun z hz => by rw [List.mem_singleton.mp hz]; exact hx)]
          show (_ → (getN g n >>= fun xs => pure (x.1 :: xs)) ⟨true⟩ x.2 = _) ∧
            (_ → (getN g n >>= fun xs => pure (x.1 :: xs)) ⟨true⟩ x.2 = _)
          rw [M.bind_run]
          refine ⟨fun ha => ?_, fun ha => ?_⟩
          · rw [h3 (fun z hz => ha z (List.mem_cons_of_mem _ hz))]
            rfl
          · obtain ⟨z, hz, hb⟩ := ha
            rcases List.mem_cons.mp hz with hz | hz
            · subst hz; omega
            · rw [h4 ⟨z, hz, hb⟩]
        · refine ⟨fun ha => absurd (ha x.1 (List.mem_cons_self ..)) hx, fun _ => ?_⟩
          rw [h2 ⟨x.1, List.mem_singleton.mpr rfl, by omega⟩]

theorem RecordSpecification.tells : Tells (deserialize_field : Get RecordSpecification) fun x => x.record_sets :=
  Tells.after (inferInstanceAs (Builds true getU32)) fun _ =>
    Tells.map (RecordSpecificationElement.tells.many _) fun _ => rfl

theorem Tells.pdu {B : Type} [PduBody B] {sets : B → List RecordSpecificationElement}
    (h : Tells (PduBody.deserializeBody : Get B) sets) {b r : Bytes} {p : Pdu B}
    (hd : (Pdu.deserialize : Get (Except DISError (Pdu B))) ⟨false⟩ b = .ok (.ok p, r)) :
    ((∀ x ∈ sets p.body, x.record_length.toNat * x.record_count.toNat < 65536) →
      (Pdu.deserialize : Get (Except DISError (Pdu B))) ⟨true⟩ b = .ok (.ok p, r)) ∧
    ((∃ x ∈ sets p.body, 65536 ≤ x.record_length.toNat * x.record_count.toNat) →
      (Pdu.deserialize : Get (Except DISError (Pdu B))) ⟨true⟩ b = .error .arithmeticOverflow) := by
  have ht : Tells (Pdu.deserialize : Get (Except DISError (Pdu B)))
      (fun x => match x with | .error _ => [] | .ok p => sets p.body) := by
    refine Tells.after inferInstance fun hd => ?_
    split
    · intro b a r h
      cases h
      exact ⟨fun _ => rfl, fun ⟨_, hx, _⟩ => nomatch hx⟩
    · exact Tells.map h fun _ => rfl
  exact ht b (.ok p) r hd

/-- The two kinds with record sets: what a build without checks decodes, a build with checks decodes to the same PDU if
length × count of every record set in it fits 16 bits, and otherwise panics on. -/
theorem C56_record_sets (b r : Bytes) :
    (∀ p : Pdu TransferOwnershipPdu, decodeAs TransferOwnershipPdu ⟨false⟩ b = .ok (.ok p, r) →
      ((∀ x ∈ p.body.record_information.record_sets, x.record_length.toNat * x.record_count.toNat < 65536) →
        decodeAs TransferOwnershipPdu ⟨true⟩ b = .ok (.ok p, r)) ∧
      ((∃ x ∈ p.body.record_information.record_sets, 65536 ≤ x.record_length.toNat * x.record_count.toNat) →
        decodeAs TransferOwnershipPdu ⟨true⟩ b = .error .arithmeticOverflow)) ∧
    (∀ p : Pdu SetRecordReliablePdu, decodeAs SetRecordReliablePdu ⟨false⟩ b = .ok (.ok p, r) →
      ((∀ x ∈ p.body.record_sets.record_sets, x.record_length.toNat * x.record_count.toNat < 65536) →
        decodeAs SetRecordReliablePdu ⟨true⟩ b = .ok (.ok p, r)) ∧
      ((∃ x ∈ p.body.record_sets.record_sets, 65536 ≤ x.record_length.toNat * x.record_count.toNat) →
        decodeAs SetRecordReliablePdu ⟨true⟩ b = .error .arithmeticOverflow)) := by
  refine ⟨fun p h => ?_, fun p h => ?_⟩
  · refine Tells.pdu (sets := fun x => x.record_information.record_sets) ?_ h
    exact Tells.after inferInstance fun _ => Tells.after inferInstance fun _ => Tells.after inferInstance fun _ =>
      Tells.after inferInstance fun _ => Tells.after inferInstance fun _ => Tells.after inferInstance fun _ =>
      Tells.map RecordSpecification.tells fun _ => rfl
  · refine Tells.pdu (sets := fun x => x.record_sets.record_sets) ?_ h
    exact Tells.after inferInstance fun _ => Tells.after inferInstance fun _ => Tells.after inferInstance fun _ =>
      Tells.after inferInstance fun _ => Tells.after inferInstance fun _ => Tells.after inferInstance fun _ =>
      Tells.after inferInstance fun _ => Tells.map RecordSpecification.tells fun _ => rfl

/-- A set record message with one set of 256 records of 256 bits: read as a set without values by a release build, a panic
in a debug build. -/
example : let b : Bytes := [7, 1, 64, 10, 0, 0, 0, 0, 0, 52, 0, 0] ++ [0, 1, 0, 1, 0, 0, 0, 1, 0, 1, 0, 0] ++
      List.replicate 12 0 ++ [0, 0, 0, 1] ++
      [0, 0, 0, 5, 0, 0, 0, 0, 1, 0, 1, 0]
    (∃ p, decodeAs SetRecordReliablePdu ⟨false⟩ b = .ok (.ok p, []) ∧
      p.body.record_sets.record_sets = [⟨5, 0, 256, 256, []⟩]) ∧
    decodeAs SetRecordReliablePdu ⟨true⟩ b = .error .arithmeticOverflow := by
  refine ⟨⟨⟨⟨⟨7, by decide⟩, 1, ⟨64, by decide⟩, ⟨10, by decide⟩, 0, 52, ⟨0⟩, 0⟩,
    { (PduBody.default : SetRecordReliablePdu) with record_sets := ⟨1, [⟨5, 0, 256, 256, []⟩]⟩ }⟩, ?_, rfl⟩, ?_⟩ <;>
  decide +kernel

end Dis
