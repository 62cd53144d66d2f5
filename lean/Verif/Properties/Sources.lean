import Verif.Proofs.ViaBufPdus
import Verif.Properties.RoundTrip
import Verif.Properties.Errors
import Verif.Spec.FieldTable
/-
C63: decoding from any source of octets.
-/
set_option maxRecDepth 8000
namespace Dis

instance {B : Type} [PduBody B] [ViaBuf (PduBody.deserializeBody : Get B)] :
    ViaBuf (Pdu.deserialize : Get (Except DISError (Pdu B))) := by
  unfold Pdu.deserialize; infer_instance
instance {B : Type} [PduBody B] [ViaBuf (PduBody.deserializeBody : Get B)] (h : PduHeader) :
    ViaBuf (Pdu.deserialize_without_header h : Get (Except DISError (Pdu B))) := by
  unfold Pdu.deserialize_without_header; infer_instance

/-- The decoder of every kind, with or without the header, is written against `get_*` and `remaining`. -/
theorem C63_decoders (k : PduKind) : WrittenForBuf k.decode ∧
    ∀ h : PduHeader, WrittenForBuf (Pdu.deserialize_without_header h : Get (Except DISError (Pdu k.Body))) :=
  have := k.viaBuf
  ⟨ViaBuf.written _, fun _ => ViaBuf.written _⟩

/-- So are the decoders of the records, as methods and as fields, of the two headers, and of the enumerations. -/
theorem C63_record_decoders : (∀ r ∈ recordFields, WrittenForBuf r.de ∧ WrittenForBuf r.fieldDe) ∧
    WrittenForBuf PduHeader.deserialize ∧ WrittenForBuf LiveEntityPduHeader.deserialize ∧
    ∀ s : EnumSpec, WrittenForBuf s.deserialize := by
  refine ⟨?_, ViaBuf.written _, ViaBuf.written _, fun s => ViaBuf.written _⟩
  have h : ∀ r ∈ recordFields, ViaBuf r.de ∧ ViaBuf r.fieldDe := by
    unfold recordFields
    repeat refine List.forall_mem_cons.mpr ⟨⟨by dsimp only; infer_instance, by dsimp only; infer_instance⟩, ?_⟩
    exact fun _ h => nomatch h
  exact fun r hr => ⟨(ViaBuf.iff_written _).mp (h r hr).1, (ViaBuf.iff_written _).mp (h r hr).2⟩

/-- The decoders of a user's PDU, if those of its fields are. -/
theorem C63_user_decoders (d : Definition) (h : ∀ f ∈ d.fields, f.WrittenForBuf) :
    WrittenForBuf (Pdu.deserialize : Get (Except DISError (Pdu d.Body))) ∧
    ∀ hd : PduHeader, WrittenForBuf (Pdu.deserialize_without_header hd : Get (Except DISError (Pdu d.Body))) := by
  have hf : ∀ (fs : List FieldDef), (∀ f ∈ fs, f.WrittenForBuf) → ∀ seen, ViaBuf (Fields.de fs seen) := by
    intro fs
    induction fs with
    | nil => intro _ seen; exact inferInstanceAs (ViaBuf (Pure.pure ()))
    | cons f fs ih =>
      intro h seen
      have ih := ih fun f hf => h f (List.mem_cons_of_mem _ hf)
      have h1 := h f (List.mem_cons_self ..)
      cases f with
      | byte => unfold Fields.de; infer_instance
      | plain t d =>
        have : ViaBuf d := (ViaBuf.iff_written d).mpr h1
        unfold Fields.de; infer_instance
      | counted t d ref =>
        have : ∀ n, ViaBuf (d n) := fun n => (ViaBuf.iff_written _).mpr (h1 n)
        unfold Fields.de; infer_instance
  have : ViaBuf (PduBody.deserializeBody : Get d.Body) := hf d.fields h []
  exact ⟨ViaBuf.written _, fun _ => ViaBuf.written _⟩

/-- Such a decoder does the same on every source: the result, the panic if there is one, and the octets that are left depend
on the octets that the source holds, not on how it holds them. -/
theorem C63_any_source {α S : Type} (g : Get α) (p : Profile → Prog α) (hp : Prog.Is p g) (B : Buf S) (octets : S → Bytes)
    (hB : B.Holds octets) (prof : Profile) (s : S) :
    ((p prof).on B s).1 = (g prof (octets s)).map Prod.fst ∧ octets ((p prof).on B s).2 = g.left prof (octets s) := by
  have h := (ViaBuf.is_iff p g).mp hp prof (octets s)
  rw [h.1, h.2]
  exact Prog.on_eq hB prof (p prof) s

/-- The sources of the `bytes` crate keep the contract: slices; two sources one after the other; the beginning of a source;
any number of slices one after the other, empty ones among them. -/
theorem C63_sources : Buf.slice.Holds id ∧
    (∀ (S T : Type) (A : Buf S) (B : Buf T) (oA : S → Bytes) (oB : T → Bytes), A.Holds oA → B.Holds oB →
      (A.chain B).Holds fun s => oA s.1 ++ oB s.2) ∧
    (∀ (S : Type) (A : Buf S) (oA : S → Bytes), A.Holds oA → A.take.Holds fun s => (oA s.1).take s.2) ∧
    ∀ n, (Buf.segments n).Holds (Buf.Segments.octets n) :=
  ⟨Buf.slice_holds, fun _ _ _ _ _ _ => Buf.chain_holds, fun _ _ _ => Buf.take_holds, Buf.segments_holds⟩

/-- A message may arrive in pieces, cut anywhere, also within a field: decoding the chain of the pieces is decoding the whole. -/
theorem C63_pieces (k : PduKind) (p : Profile → Prog (Except DISError (Pdu k.Body))) (hp : Prog.Is p k.decode) (n : Nat)
    (pieces : Buf.Segments n) (prof : Profile) :
    ((p prof).on (Buf.segments n) pieces).1 = (k.decode prof (pieces.octets n)).map Prod.fst ∧
    Buf.Segments.octets n ((p prof).on (Buf.segments n) pieces).2 = k.decode.left prof (pieces.octets n) :=
  C63_any_source _ p hp _ _ (Buf.segments_holds n) prof pieces

/-- In particular a message of a kind with a fixed layout is found again in any pieces, whatever follows it. -/
theorem C63_roundtrip_in_pieces (k : PduKind) (hk : k.fixedLayout = true) (h1 : k ≠ .StopFreeze)
    (h2 : k ≠ .StopFreezeReliable) (x : Pdu k.Body) (prof : Profile) (buf : Bytes) :
    ∃ q w, x.serialize prof buf = .ok ((q, .ok ()), buf ++ w) ∧ q.body = x.body ∧
      ∀ (p : Profile → Prog (Except DISError (Pdu k.Body))), Prog.Is p k.decode →
        ∀ (n : Nat) (pieces : Buf.Segments n) (rest : Bytes), pieces.octets n = w ++ rest → ∀ prof',
          ∃ left : Buf.Segments n, (p prof').on (Buf.segments n) pieces = (.ok (.ok q), left) ∧ left.octets n = rest := by
  obtain ⟨q, w, hs, _, hb, hd⟩ := C11_roundtrip k hk h1 h2 x prof buf
  refine ⟨q, w, hs, hb, fun p hp n pieces rest e prof' => ?_⟩
  obtain ⟨e1, e2⟩ := C63_pieces k p hp n pieces prof'
  rw [e, hd prof' rest] at e1
  have e3 : k.decode.left prof' (w ++ rest) = rest := k.decode.sound _ _ _ _ (hd prof' rest)
  rw [e, e3] at e2
  exact ⟨_, Prod.ext e1 rfl, e2⟩

/-- Decoding from `source.take(n)`, for a source with at least `n` octets: whatever the decoder does, also if it panics, what
is left of the limit can be skipped, and then the source stands right after the first `n` octets. -/
theorem C63_take {α S : Type} (p : Prog α) (A : Buf S) (octets : S → Bytes) (hA : A.Holds octets) (s : S) (n : Nat)
    (hn : n ≤ (octets s).length) :
    let after := (p.on A.take (s, n)).2
    after.2 ≤ A.remaining after.1 ∧ octets (A.advance after.1 after.2) = (octets s).drop n := by
  have hT := Buf.take_holds hA
  have i1 := Prog.on_invariant hT (fun s => (octets s.1).drop s.2)
    (by
      intro s n hn
      rw [List.length_take] at hn
      show (octets (A.advance s.1 n)).drop (s.2 - n) = _
      rw [hA.advance_eq _ _ (by omega), List.drop_drop]
      congr 1
      omega) p (s, n)
  have i2 := Prog.on_invariant hT (fun s => decide (s.2 ≤ (octets s.1).length))
    (by
      intro s n hn
      rw [List.length_take] at hn
      show decide (s.2 - n ≤ (octets (A.advance s.1 n)).length) = _
      rw [hA.advance_eq _ _ (by omega), List.length_drop]
      exact decide_eq_decide.mpr (by omega)) p (s, n)
  dsimp only at i1 i2 ⊢
  have hle := decide_eq_true_iff.mp (i2.trans (decide_eq_true hn))
  rw [hA.remaining_eq, hA.advance_eq _ _ hle]
  exact ⟨hle, i1⟩

/-- So a receiver that knows how many octets each message has can decode one after the other from a source, even kinds of
which the decoder leaves some octets unread. -/
theorem C63_framed (k : PduKind) (hk : k.unconditional = true) (x : Pdu k.Body) (hl : declaredOctets x ≤ 65535)
    (prof : Profile) (buf : Bytes) :
    ∃ q w, x.serialize prof buf = .ok ((q, .ok ()), buf ++ w) ∧
      ∀ (p : Profile → Prog (Except DISError (Pdu k.Body))), Prog.Is p k.decode →
        ∀ (S : Type) (A : Buf S) (octets : S → Bytes), A.Holds octets → ∀ (s : S) (rest : Bytes), octets s = w ++ rest →
          ∀ prof', ∃ s' limit, (p prof').on A.take (s, w.length) = (.ok (.ok ⟨q.header, kept x.body⟩), s', limit) ∧
            octets (A.advance s' limit) = rest := by
  obtain ⟨q, w, hs, _, hd⟩ := C12_survives k hk x hl prof buf
  refine ⟨q, w, hs, fun p hp S A octets hA s rest e prof' => ?_⟩
  have h1 := (C63_any_source _ p hp _ _ (Buf.take_holds hA) prof' (s, w.length)).1
  rw [e, List.take_left, show w = w ++ [] from (List.append_nil _).symm, hd prof' []] at h1
  have h2 := (C63_take (p prof') A octets hA s w.length (by rw [e, List.length_append]; omega)).2
  rw [e, List.drop_left] at h2
  rw [List.append_nil] at h1
  exact ⟨_, _, Prod.ext h1 rfl, h2⟩

/-! ### Cases -/

/-- Two octets cut apart, with an empty piece between them: the loop of `copy_to_slice` runs. -/
example : (Prog.get 2 .ret : Prog Bytes).on (Buf.segments 2) ([1], [], [2, 3]) = (.ok [1, 2], ([], [], [3])) := rfl

/-- Four octets wanted, three there, in two pieces: a panic, and nothing is taken. -/
example : (Prog.get 4 .ret : Prog Bytes).on (Buf.segments 1) ([1], [2, 3]) =
    (.error .bufferUnderflow, ([1], [2, 3])) := rfl

/-- A fire message (fixed layout) whose first octet comes by itself. -/
example (x : Pdu FirePdu) : ∃ (q : Pdu FirePdu) (w : Bytes) (p : Profile → Prog (Except DISError (Pdu FirePdu))),
    q.body = x.body ∧ w ≠ [] ∧ ∀ prof, ∃ left,
      (p prof).on (Buf.segments 1) (w.take 1, w.drop 1 ++ [7]) = (.ok (.ok q), left) ∧ left.octets 1 = [7] := by
  obtain ⟨p, hp⟩ := (C63_decoders .Fire).1
  obtain ⟨q, w, hs, hb, hd⟩ := C63_roundtrip_in_pieces .Fire rfl (by decide) (by decide) x ⟨true⟩ []
  refine ⟨q, w, p, hb, ?_, fun prof => hd p hp 1 (w.take 1, w.drop 1 ++ [7]) [7] ?_ prof⟩
  · obtain ⟨q', w', hs', hl, _⟩ := C11_roundtrip .Fire rfl (by decide) (by decide) x ⟨true⟩ []
    rw [hs] at hs'
    simp only [Except.ok.injEq, Prod.mk.injEq, List.append_cancel_left_eq, and_true] at hs'
    obtain ⟨_, rfl⟩ := hs'
    intro e
    rw [e] at hl
    exact absurd hl (by decide)
  · show w.take 1 ++ (w.drop 1 ++ [7]) = w ++ [7]
    rw [← List.append_assoc, List.take_append_drop]

/-- A signal message (variable length, its data unread) framed by `take` in a slice that goes on. -/
example := C63_framed .Signal rfl sampleSignal (by decide +kernel) ⟨true⟩ []
example (w : Bytes) : (id (w ++ [1, 2, 3]) : Bytes) = w ++ [1, 2, 3] := rfl

/-- A user's definition of which the fields are types of the crate. -/
example (d : Definition) (h : d.fields = [.byte, .of EntityId, .ofLen (Option ModulationParameters) 0]) : ∀ f ∈ d.fields, f.WrittenForBuf := by
  rw [h]
  refine List.forall_mem_cons.mpr ⟨trivial, List.forall_mem_cons.mpr ⟨ViaBuf.written (deserialize_field : Get EntityId), ?_⟩⟩
  exact List.forall_mem_cons.mpr ⟨fun n => ViaBuf.written (deserialize_with_len n : Get (Option ModulationParameters)), fun _ h => nomatch h⟩

end Dis
