import Verif.Spec.HeaderCalls
import Verif.Properties.RoundTrip
/-
C46: the length API (`calculate_length`, `finalize`) and the header's accessors.
-/
namespace Dis

/-- `calculate_length` returns the PDU's declared length exactly, or, if that does not fit 16 bits,
the size error carrying it. -/
theorem C46_calculate_length (k : PduKind) (p : Pdu k.Body) :
    (declaredOctets p ≤ 65535 ∧ ∃ n, p.calculate_length = .ok n ∧ (n.toNat : Int) = declaredOctets p) ∨
    (65535 < declaredOctets p ∧ ∃ n : Nat, p.calculate_length = .error (.PduSizeExceeded n 8192) ∧
      (n : Int) = declaredOctets p) := by
  rw [declaredOctets_eq]
  unfold Pdu.calculate_length PduHeader.LENGTH MAX_PDU_SIZE_OCTETS
  by_cases h : 12 + PduBody.fieldsLen p.body < 65536
  · left
    refine ⟨by omega, UInt16.ofNat (12 + PduBody.fieldsLen p.body), by simp only [if_pos h], ?_⟩
    rw [UInt16.toNat_ofNat_of_lt' (by simpa [UInt16.size] using h)]
  · right
    exact ⟨by omega, _, by simp only [if_neg h], rfl⟩

/-- `calculate_length` agrees with `serialize`: it fails when `serialize` refuses, with the same error,
and otherwise is the length `serialize` writes into octets 8 and 9. -/
theorem C46_agrees_with_serialize (k : PduKind) (p q : Pdu k.Body) (r : Except DISError Unit)
    (prof : Profile) (buf buf' : Bytes) (h : p.serialize prof buf = .ok ((q, r), buf')) :
    (∀ e, r = .error e ↔ p.calculate_length = .error e) ∧
    (r = .ok () → p.calculate_length = .ok q.header.length ∧
      ((buf'.drop buf.length).getD 8 0).toNat * 256 + ((buf'.drop buf.length).getD 9 0).toNat =
        q.header.length.toNat) := by
  rcases C46_calculate_length k p with ⟨hle, n, hn, hn'⟩ | ⟨hgt, n, hn, hn'⟩
  · cases r with
    | error e =>
      have := (C06_refused_iff k p prof buf).mp ⟨q, e, buf', h⟩
      omega
    | ok u =>
      have hl := C06_length_not_truncated k p q prof buf buf' h
      have hq : n = q.header.length := UInt16.toNat_inj.mp (by omega)
      refine ⟨fun e => ⟨fun h => (by cases h), fun h => (by rw [hn] at h; cases h)⟩, fun _ => ⟨by rw [hn, hq], ?_⟩⟩
      obtain ⟨rfl, _, hb⟩ := Pdu.serialize_ok h
      rw [hb, List.append_assoc, List.drop_left]
      have hw := (C02_header_layout p.after.header prof [])
      have hw1 := hw.1
      rw [PduHeader.writes] at hw1
      simp only [Except.ok.injEq, Prod.mk.injEq, true_and, List.nil_append] at hw1
      rw [hw1]
      have hlt := p.after.header.length.toNat_lt
      simp
      omega
  · cases r with
    | ok u =>
      have hl := C06_length_not_truncated k p q prof buf buf' h
      have := q.header.length.toNat_lt
      omega
    | error e =>
      obtain ⟨_, ⟨m, rfl, hm⟩, _⟩ := C06_refused_atomically k p q e prof buf buf' h
      have : m = n := by omega
      subst this
      refine ⟨fun e => ?_, fun h => by cases h⟩
      rw [hn]
      simp

example := C46_agrees_with_serialize .Signal sampleSignal _ _ _ _ _ sampleSignal_serialize
example : sampleSignal.calculate_length = .ok 35 ∧ sampleSignal.header.length = 0x0506 ∧
    sampleSignal.finalize.header.length = 35 := by decide +kernel

/-- `finalize` changes nothing but the header's length, which becomes the declared length, or zero if
that does not fit; doing it again changes nothing. -/
theorem C46_finalize (k : PduKind) (p : Pdu k.Body) :
    p.finalize.body = p.body ∧
    p.finalize.header = { p.header with length := p.finalize.header.length } ∧
    (declaredOctets p ≤ 65535 → (p.finalize.header.length.toNat : Int) = declaredOctets p) ∧
    (65535 < declaredOctets p → p.finalize.header.length = 0) ∧
    p.finalize.finalize = p.finalize := by
  refine ⟨rfl, rfl, ?_, ?_, rfl⟩
  · intro hle
    rcases C46_calculate_length k p with ⟨_, n, hn, hn'⟩ | ⟨hgt, _⟩
    · unfold Pdu.finalize
      rw [hn]
      exact hn'
    · omega
  · intro hgt
    rcases C46_calculate_length k p with ⟨hle, _⟩ | ⟨_, n, hn, _⟩
    · omega
    · unfold Pdu.finalize
      rw [hn]
      rfl

/-- A fresh PDU is already finalized. -/
theorem C46_new_is_finalized (k : PduKind) (now : UInt32) :
    (Pdu.new now : Pdu k.Body).finalize = Pdu.new now := rfl

/-- Stale bookkeeping never reaches the wire: what `serialize` returns, leaves and appends does not
depend on the header's type, family and length (so `finalize` beforehand makes no difference). -/
theorem C46_stale_header_ignored (k : PduKind) (p p' : Pdu k.Body) (hb : p'.body = p.body)
    (hh : p'.header = { p.header with pdu_type := p'.header.pdu_type
                                      protocol_family := p'.header.protocol_family
                                      length := p'.header.length })
    (prof : Profile) (buf : Bytes) :
    (∀ q w, p.serialize prof buf = .ok ((q, .ok ()), w) ↔ p'.serialize prof buf = .ok ((q, .ok ()), w)) ∧
    (∀ e, p.serialize prof buf = .error e ↔ p'.serialize prof buf = .error e) ∧
    (∀ e, (∃ q w, p.serialize prof buf = .ok ((q, .error e), w)) ↔
      ∃ q w, p'.serialize prof buf = .ok ((q, .error e), w)) := by
  have ha : p'.after = p.after := by
    unfold Pdu.after
    rw [hb, hh]
  rw [Pdu.serialize_eq, Pdu.serialize_eq, ha, hb]
  by_cases hl : 12 + PduBody.fieldsLen (PduBody.prep p.body) < 65536
  · simp only [if_pos hl]
    exact ⟨fun _ _ => trivial, fun _ => trivial, fun _ => trivial⟩
  · simp only [if_neg hl]
    refine ⟨fun q w => by simp, fun e => by simp, fun e => ?_⟩
    simp

example := C46_stale_header_ignored .Signal sampleSignal ⟨sampleHeader, sampleSignal.body⟩ rfl rfl ⟨true⟩ []

theorem C46_finalize_then_serialize (k : PduKind) (p : Pdu k.Body) (prof : Profile) (buf : Bytes)
    (q : Pdu k.Body) (w : Bytes) :
    p.finalize.serialize prof buf = .ok ((q, .ok ()), w) ↔ p.serialize prof buf = .ok ((q, .ok ()), w) :=
  ((C46_stale_header_ignored k p p.finalize rfl rfl prof buf).1 q w).symm

theorem lastSet_append {α : Type} (pick : HeaderCall → Option α) (init : α) (calls : List HeaderCall)
    (c : HeaderCall) :
    lastSet pick init (calls ++ [c]) = (pick c).getD (lastSet pick init calls) := by
  unfold lastSet
  rw [List.filterMap_append]
  cases h : pick c <;> simp [h]

/-- After any history of setter calls, each getter returns what was set last (or the original value),
and nothing else in the header has changed. -/
theorem C46_header_history (h : PduHeader) (calls : List HeaderCall) :
    let h' := calls.foldl HeaderCall.on h
    h'.get_type = lastSet HeaderCall.type? h.pdu_type calls ∧
    h'.get_family = lastSet HeaderCall.family? h.protocol_family calls ∧
    h'.get_length = lastSet HeaderCall.length? h.length calls ∧
    h' = { h with pdu_type := h'.pdu_type, protocol_family := h'.protocol_family, length := h'.length } := by
  suffices H : ∀ calls : List HeaderCall, calls.reverse.foldl HeaderCall.on h =
      { h with pdu_type := lastSet HeaderCall.type? h.pdu_type calls.reverse
               protocol_family := lastSet HeaderCall.family? h.protocol_family calls.reverse
               length := lastSet HeaderCall.length? h.length calls.reverse } by
    have := H calls.reverse
    rw [List.reverse_reverse] at this
    intro h'
    have e : h' = _ := this
    rw [e]
    exact ⟨rfl, rfl, rfl, rfl⟩
  intro calls
  induction calls with
  | nil => rfl
  | cons c cs ih =>
    rw [List.reverse_cons, List.foldl_append, ih]
    simp only [lastSet_append]
    cases c <;> rfl

/-- The same for the live-entity header. -/
theorem C46_live_header_history (h : LiveEntityPduHeader) (calls : List HeaderCall) :
    let h' := calls.foldl HeaderCall.onLive h
    h'.get_type = lastSet HeaderCall.type? h.pdu_type calls ∧
    h'.get_family = lastSet HeaderCall.family? h.protocol_family calls ∧
    h'.get_length = lastSet HeaderCall.length? h.length calls ∧
    h' = { h with pdu_type := h'.pdu_type, protocol_family := h'.protocol_family, length := h'.length } := by
  suffices H : ∀ calls : List HeaderCall, calls.reverse.foldl HeaderCall.onLive h =
      { h with pdu_type := lastSet HeaderCall.type? h.pdu_type calls.reverse
               protocol_family := lastSet HeaderCall.family? h.protocol_family calls.reverse
               length := lastSet HeaderCall.length? h.length calls.reverse } by
    have := H calls.reverse
    rw [List.reverse_reverse] at this
    intro h'
    have e : h' = _ := this
    rw [e]
    exact ⟨rfl, rfl, rfl, rfl⟩
  intro calls
  induction calls with
  | nil => rfl
  | cons c cs ih =>
    rw [List.reverse_cons, List.foldl_append, ih]
    simp only [lastSet_append]
    cases c <;> rfl

/-- A history that sets the length twice and the type once. -/
example : ([.setLength 5, .setType ⟨2, by decide⟩, .setLength 96] : List HeaderCall).foldl HeaderCall.on exampleHeader =
    { exampleHeader with pdu_type := ⟨2, by decide⟩, length := 96 } := rfl

end Dis
