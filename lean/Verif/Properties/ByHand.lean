import Verif.Proofs.ByHandLocal
import Verif.Properties.Dispatch
import Verif.Properties.MessageSize
import Verif.Properties.Unambiguous
/-
C66: a receiver that gets the whole message.
-/
set_option maxRecDepth 4000
namespace Dis

theorem PduKind.receiveWhole_completed (k : PduKind) (hk : k.handRead = false) : k.receiveWhole = (do
    match ← k.decode with
    | .error e => return .error e
    | .ok p =>
      let body ← k.complete p.header.length.toNat p.body
      return .ok ⟨p.header, body⟩) := by
  cases k <;> first | rfl | exact absurd hk (by decide)

theorem byHand_reads {B : Type} [PduBody B] {g : Get B} {w : Bytes} {b : B} (hg : Reads g w b) (h : PduHeader) :
    Reads (do
      let header ← PduHeader.deserialize
      let body ← g
      return (.ok ⟨header, body⟩ : Except DISError (Pdu B))) (wire h ++ w) (.ok ⟨h, b⟩) :=
  Reads.bind h.reads <| Reads.last hg (Reads.ret _)

theorem PduKind.handRead_reads (k : PduKind) (hk : k.handRead = true) (b : k.Body) (ht : k.truthful b) (h : PduHeader) :
    Reads k.receiveWhole (wire h ++ wire b) (.ok ⟨h, b⟩) := by
  cases k
  case EntityState => exact byHand_reads (B := EntityStatePdu) (EntityStatePdu.reads_byHand b ht.1 ht.2) h
  case AggregateState => exact byHand_reads (B := AggregateStatePdu) (AggregateStatePdu.reads_byHand b ht) h
  case StopFreeze => exact byHand_reads (B := StopFreezePdu) (StopFreezePdu.reads_byHand b) h
  case StopFreezeReliable => exact byHand_reads (B := StopFreezeReliablePdu) (StopFreezeReliablePdu.reads_byHand b) h
  case ArealObjectState => exact byHand_reads (B := ArealObjectStatePdu) (ArealObjectStatePdu.reads_byHand b ht) h
  all_goals exact absurd hk (by decide)

theorem PduKind.truthful_unsentBlank (k : PduKind) (hk : k.handRead = true) {b : k.Body} (ht : k.truthful b) :
    k.truthful (k.unsentBlank (PduBody.prep b)) := by
  cases k
  case EntityState => exact ht
  case AggregateState => exact ht
  case StopFreeze => exact ht
  case StopFreezeReliable => exact ht
  case ArealObjectState => exact ht
  all_goals exact absurd hk (by decide)

/-- Any PDU that is sent, of any kind, if its counts and lengths are those of its lists: this receiver gets it back complete,
its lists included, but for the fields the encoder does not write (C58), whatever octets follow, and those are left. -/
theorem C66_whole (k : PduKind) (p q : Pdu k.Body) (prof : Profile) (w : Bytes) (ht : k.truthful p.body)
    (h : p.serialize prof [] = .ok ((q, .ok ()), w)) (prof' : Profile) (rest : Bytes) :
    k.receiveWhole prof' (w ++ rest) = .ok (.ok ⟨q.header, k.unsentBlank q.body⟩, rest) := by
  have hl := (C53_length_field k p q prof [] w h).1
  have hw := (C04_declared_length_all_kinds k p q prof [] w h).1
  have hs := C12_survives_all_kinds k p q prof [] w h
  obtain ⟨rfl, _, _⟩ := Pdu.serialize_ok h
  have hb : p.after.body = PduBody.prep p.body := rfl
  rw [hb] at hs hw ⊢
  by_cases hk : k.handRead = false
  · obtain ⟨hd, hc⟩ := k.completes_sent hk p.body ht hl
    rw [k.receiveWhole_completed hk, M.bind_run, hs hd prof' rest]
    dsimp only
    rw [M.bind_run, hc prof' rest, k.sent_of_truthful ht]
    rfl
  · rw [hw, List.nil_append, k.sent_of_truthful ht]
    exact k.handRead_reads (by simpa using hk) _ (k.truthful_unsentBlank (by simpa using hk) ht) _ prof' rest

/-- ... which is the very PDU as the sender has it after sending, for all but four kinds. -/
theorem C66_exactly (k : PduKind) (hk : k.zeroesFields = false) (p q : Pdu k.Body) (prof : Profile) (w : Bytes)
    (ht : k.truthful p.body) (h : p.serialize prof [] = .ok ((q, .ok ()), w)) (prof' : Profile) (rest : Bytes) :
    k.receiveWhole prof' (w ++ rest) = .ok (.ok q, rest) := by
  have hb : k.unsentBlank q.body = q.body := by
    cases k <;> first | exact absurd hk (by decide) | rfl
  rw [C66_whole k p q prof w ht h prof' rest, hb]

/-- Nor need the kind be known beforehand. -/
theorem C66_any_kind (k : PduKind) (p q : Pdu k.Body) (prof : Profile) (w : Bytes) (ht : k.truthful p.body)
    (h : p.serialize prof [] = .ok ((q, .ok ()), w)) (prof' : Profile) (rest : Bytes) :
    receiveWhole prof' (w ++ rest) = some (⟨k, ⟨q.header, k.unsentBlank q.body⟩⟩, rest) := by
  have h1 := (C04_declared_length_all_kinds k p q prof [] w h).1
  have h12 : 12 ≤ w.length := by
    rw [h1]; simp only [List.length_append, PduHeader.wire_length]; omega
  have hlt : k.typeCode < 256 := EnumFits.fits _ k.typeCode_assigned
  have hc : ((w ++ rest).getD 2 0).toNat = k.typeCode := by
    have hc : w.getD 2 0 = UInt8.ofNat k.typeCode := (C42_codes k p q prof [] w h).2.2.1
    rw [List.getD_eq_getElem?_getD] at hc ⊢
    rw [List.getElem?_append_left (by omega), hc, UInt8.toNat_ofNat_of_lt' (by simpa [UInt8.size] using hlt)]
  obtain ⟨t, e, he, _⟩ := C03_get_pdu_type prof' (w ++ rest) (by rw [List.length_append]; omega)
  have hk : PduKind.ofType t = some k := by
    refine PduKind.ofType_some.mpr ?_
    rw [he, hc]
    rw [hc, ← assigned_iff]
    exact k.typeCode_assigned
  unfold receiveWhole
  rw [e]
  dsimp only
  rw [hk]
  dsimp only
  rw [C66_whole k p q prof w ht h prof' rest]

theorem PduKind.receiveWhole_local (k : PduKind) : Local k.receiveWhole := by
  by_cases hk : k.handRead = false
  · rw [k.receiveWhole_completed hk]
    have hn : k ≠ .EntityState := by rintro rfl; exact absurd hk (by decide)
    refine Local.bind (fun prof b r rest h => C15_ignores_what_follows k hn prof b r rest h) fun r => ?_
    cases r with
    | error e => exact Local.ret _
    | ok p => exact Local.bind (k.complete_local _ _) fun _ => Local.ret _
  · have hg : ∀ {B : Type} [PduBody B] {g : Get B}, Local g → Local (do
        let header ← PduHeader.deserialize
        let body ← g
        return (.ok ⟨header, body⟩ : Except DISError (Pdu B))) := fun h =>
      Local.bind PduHeader.fixed.local fun _ => Local.bind h fun _ => Local.ret _
    cases k
    case EntityState => exact hg (B := EntityStatePdu) EntityStatePdu.byHand_local
    case AggregateState => exact hg (B := AggregateStatePdu) AggregateStatePdu.byHand_local
    case StopFreeze => exact hg (B := StopFreezePdu) StopFreezePdu.byHand_local
    case StopFreezeReliable => exact hg (B := StopFreezeReliablePdu) StopFreezeReliablePdu.byHand_local
    case ArealObjectState => exact hg (B := ArealObjectStatePdu) ArealObjectStatePdu.byHand_local
    all_goals exact absurd rfl hk

theorem get_pdu_type_octet (prof : Profile) {b : Bytes} (h : 12 ≤ b.length) :
    PduHeader.get_pdu_type prof b = .ok (some (PduType.spec.ofCode (typeOctet b))) := by
  obtain ⟨t, e, h1, h2, _⟩ := C03_get_pdu_type prof b h
  rw [e]
  have : t = PduType.spec.ofCode (typeOctet b) := by
    apply EnumVal.ext
    by_cases ha : assignedPduType (typeOctet b)
    · exact (h1 ha).trans (EnumSpec.ofCode_of_mem ((assigned_iff _).mpr ha)).symm
    · rw [EnumSpec.ofCode_of_not_mem (fun hm => ha ((assigned_iff _).mp hm))]
      exact h2 ha
  rw [this]

theorem receiveWhole_eq (prof : Profile) {b : Bytes} {k : PduKind} (h : 12 ≤ b.length) (hk : typeOctet b = k.typeCode) :
    receiveWhole prof b = match k.receiveWhole prof b with
      | .ok (.ok p, rest) => some (⟨k, p⟩, rest)
      | _ => none := by
  unfold receiveWhole
  rw [get_pdu_type_octet prof h]
  dsimp only
  rw [PduKind.ofType_ofCode.mpr hk]
  rfl

theorem receiveWhole_some {prof : Profile} {b rest : Bytes} {p : AnyPdu} (h : receiveWhole prof b = some (p, rest)) :
    12 ≤ b.length ∧ typeOctet b = p.kind.typeCode ∧ p.kind.receiveWhole prof b = .ok (.ok p.pdu, rest) := by
  by_cases h12 : 12 ≤ b.length
  · unfold receiveWhole at h
    rw [get_pdu_type_octet prof h12] at h
    dsimp only at h
    cases hk : PduKind.ofType (PduType.spec.ofCode (typeOctet b)) with
    | none => rw [hk] at h; cases h
    | some k =>
      rw [hk] at h
      dsimp only at h
      cases hr : k.receiveWhole prof b with
      | error e => rw [hr] at h; cases h
      | ok x =>
        obtain ⟨x | x, r⟩ := x
        · rw [hr] at h; cases h
        · rw [hr] at h
          cases h
          exact ⟨h12, PduKind.ofType_ofCode.mp hk, hr⟩
  · unfold receiveWhole at h
    rw [(C03_get_pdu_type_short prof b).mpr (by omega)] at h
    cases h

theorem typeOctet_append {b : Bytes} (h : 12 ≤ b.length) (c : Bytes) : typeOctet (b ++ c) = typeOctet b := by
  unfold typeOctet
  simp only [List.getD_eq_getElem?_getD]
  rw [List.getElem?_append_left (by omega)]

theorem PduKind.receiveWhole_short (k : PduKind) (prof : Profile) {u : Bytes} (h : u.length < 12)
    (r : Except DISError (Pdu k.Body) × Bytes) : k.receiveWhole prof u ≠ .ok r := by
  have hh : PduHeader.deserialize prof u = .error .bufferUnderflow := PduHeader.fixed.run_short prof h
  have hg : ∀ {B : Type} [PduBody B] {g : Get B}, (do
        let header ← PduHeader.deserialize
        let body ← g
        return (.ok ⟨header, body⟩ : Except DISError (Pdu B)) : Get _) prof u = .error .bufferUnderflow := by
    intro B _ g
    rw [M.bind_run, hh]
  have : k.receiveWhole prof u = .error .bufferUnderflow := by
    by_cases hk : k.handRead = false
    · rw [k.receiveWhole_completed hk, M.bind_run, show k.decode prof u = _ from Pdu.deserialize_short prof u h]
    · cases k
      case EntityState => exact hg (B := EntityStatePdu)
      case AggregateState => exact hg (B := AggregateStatePdu)
      case StopFreeze => exact hg (B := StopFreezePdu)
      case StopFreezeReliable => exact hg (B := StopFreezeReliablePdu)
      case ArealObjectState => exact hg (B := ArealObjectStatePdu)
      all_goals exact absurd rfl hk
  rw [this]
  exact nofun

/-- What it takes for a message, it takes for that message whatever follows. -/
theorem C66_ignores_what_follows (prof : Profile) (b rest : Bytes) (p : AnyPdu) (h : receiveWhole prof b = some (p, rest)) :
    ∃ u, b = u ++ rest ∧ 12 ≤ u.length ∧ ∀ rest', receiveWhole prof (u ++ rest') = some (p, rest') := by
  obtain ⟨h12, hk, hr⟩ := receiveWhole_some h
  obtain ⟨u, hu, hu'⟩ := p.kind.receiveWhole_local prof b _ rest hr
  have hu12 : 12 ≤ u.length := by
    have := hu' []
    rw [List.append_nil] at this
    refine Nat.le_of_not_lt fun hlt => ?_
    exact absurd this (p.kind.receiveWhole_short prof hlt _)
  refine ⟨u, hu, hu12, fun rest' => ?_⟩
  have ht : typeOctet (u ++ rest') = p.kind.typeCode := by
    rw [typeOctet_append hu12, ← hk, hu, typeOctet_append hu12]
  rw [receiveWhole_eq prof (by rw [List.length_append]; omega) ht, hu' rest']

/-- A message that is cut short is never taken for one. -/
theorem C66_cut_short (k : PduKind) (p q : Pdu k.Body) (prof : Profile) (u v : Bytes) (ht : k.truthful p.body)
    (h : p.serialize prof [] = .ok ((q, .ok ()), u ++ v)) (hv : v ≠ []) (prof' : Profile) : receiveWhole prof' u = none := by
  cases hr : receiveWhole prof' u with
  | none => rfl
  | some x =>
    obtain ⟨x, rest⟩ := x
    obtain ⟨u', rfl, _, hu⟩ := C66_ignores_what_follows prof' u rest x hr
    have h1 := hu (rest ++ v)
    have h2 := C66_any_kind k p q prof _ ht h prof' []
    rw [List.append_nil, List.append_assoc, h1] at h2
    have := (Prod.mk.inj (Option.some.inj h2)).2
    rw [List.append_eq_nil_iff] at this
    exact absurd this.2 hv

theorem wholeSteps_enough (prof : Profile) : ∀ (n m : Nat) (b : Bytes), b.length ≤ n → b.length ≤ m →
    wholeSteps prof n b = wholeSteps prof m b := by
  have h0 : ∀ b : Bytes, b.length ≤ 0 → receiveWhole prof b = none := by
    intro b hb
    cases h : receiveWhole prof b with
    | none => rfl
    | some x => have := (receiveWhole_some (p := x.1) (rest := x.2) h).1; omega
  intro n
  induction n with
  | zero =>
    intro m b hn _
    cases m with
    | zero => rfl
    | succ m => rw [wholeSteps.eq_2, h0 b hn]; rfl
  | succ n ih =>
    intro m b hn hm
    cases m with
    | zero => rw [wholeSteps.eq_2, h0 b hm]; rfl
    | succ m =>
      rw [wholeSteps.eq_2, wholeSteps.eq_2]
      cases hd : receiveWhole prof b with
      | none => rfl
      | some x =>
        obtain ⟨r, b'⟩ := x
        obtain ⟨w, rfl, h12, _⟩ := C66_ignores_what_follows prof b b' r hd
        rw [List.length_append] at hn hm
        dsimp only
        rw [ih m b' (by omega) (by omega)]

theorem receiveWholes_none {prof : Profile} {b : Bytes} (h : receiveWhole prof b = none) : receiveWholes prof b = ([], b) := by
  unfold receiveWholes
  cases hb : b.length with
  | zero => rfl
  | succ n => rw [wholeSteps.eq_2, h]

theorem receiveWholes_some {prof : Profile} {b b' : Bytes} {p : AnyPdu} (h : receiveWhole prof b = some (p, b')) :
    receiveWholes prof b = (p :: (receiveWholes prof b').1, (receiveWholes prof b').2) := by
  obtain ⟨m, rfl, h12, _⟩ := C66_ignores_what_follows prof b b' p h
  have hl : (m ++ b').length = m.length + b'.length := List.length_append
  unfold receiveWholes
  rw [wholeSteps_enough prof _ (m.length + b'.length - 1 + 1) (m ++ b') (Nat.le_refl _) (by omega), wholeSteps.eq_2, h]
  dsimp only
  rw [wholeSteps_enough prof (m.length + b'.length - 1) b'.length b' (by omega) (Nat.le_refl _)]

/-- Any octets, in two parts: what is received of the first part is received of both, and then what is received of what was
left of the first part, and the second. -/
theorem receiveWholes_append (prof : Profile) (c : Bytes) : ∀ (n : Nat) (b : Bytes), b.length ≤ n →
    receiveWhole prof (receiveWholes prof b).2 = none ∧ receiveWholes prof (b ++ c) =
    ((receiveWholes prof b).1 ++ (receiveWholes prof ((receiveWholes prof b).2 ++ c)).1,
      (receiveWholes prof ((receiveWholes prof b).2 ++ c)).2) := by
  intro n
  induction n with
  | zero =>
    intro b hb
    obtain rfl : b = [] := List.eq_nil_of_length_eq_zero (by omega)
    exact ⟨rfl, rfl⟩
  | succ n ih =>
    intro b hb
    cases h : receiveWhole prof b with
    | none => rw [receiveWholes_none h]; exact ⟨h, rfl⟩
    | some x =>
      obtain ⟨p, b'⟩ := x
      obtain ⟨m, rfl, h12, hm⟩ := C66_ignores_what_follows prof b b' p h
      have hl : (m ++ b').length = m.length + b'.length := List.length_append
      obtain ⟨i1, i2⟩ := ih b' (by omega)
      rw [receiveWholes_some h, List.append_assoc, receiveWholes_some (hm (b' ++ c)), i2]
      exact ⟨i1, rfl⟩

/-- It does not matter in what pieces octets arrive, whatever they are. -/
theorem C66_any_pieces (prof : Profile) (pieces : List Bytes) :
    receiveWholePieces prof [] pieces = receiveWholes prof pieces.flatten := by
  suffices H : ∀ kept, receiveWhole prof kept = none →
      receiveWholePieces prof kept pieces = receiveWholes prof (kept ++ pieces.flatten) by
    exact H [] rfl
  induction pieces with
  | nil =>
    intro kept hk
    rw [List.flatten_nil, List.append_nil, receiveWholes_none hk]
    rfl
  | cons piece pieces ih =>
    intro kept hk
    obtain ⟨h1, h2⟩ := receiveWholes_append prof pieces.flatten (kept ++ piece).length (kept ++ piece) (Nat.le_refl _)
    rw [List.flatten_cons, ← List.append_assoc, h2, receiveWholePieces.eq_2, ih _ h1]

/-- Any number of PDUs of any kinds, one after another with nothing in between, arriving in any pieces: the receiver gets all
of them, complete and in order, and nothing is left. -/
theorem C66_sequence (ps qs : List AnyPdu) (prof : Profile) (w : Bytes) (h : sendAll ps prof [] = .ok (.ok qs, w))
    (ht : ∀ p ∈ ps, p.kind.truthful p.pdu.body) (prof' : Profile) (pieces : List Bytes) (hp : pieces.flatten = w) :
    receiveWholePieces prof' [] pieces = (qs.map AnyPdu.received, []) := by
  rw [C66_any_pieces, hp]
  obtain ⟨_, rfl, hs⟩ := sendAll_sends prof ps qs [] w h
  clear h hp
  induction hs with
  | nil => rfl
  | @cons p ps qs q w v h hs ih =>
    rw [receiveWholes_some (C66_any_kind p.kind p.pdu q prof w (ht p List.mem_cons_self) h prof' v)]
    rw [ih fun x hx => ht x (List.mem_cons_of_mem _ hx)]
    rfl

theorem Sends.sendAll {prof : Profile} {ps qs : List AnyPdu} {w : Bytes} (h : Sends prof ps qs w) :
    ∀ buf, Dis.sendAll ps prof buf = .ok (.ok qs, buf ++ w) := by
  induction h with
  | nil => intro buf; rw [List.append_nil]; rfl
  | @cons p ps qs q w v h hs ih =>
    intro buf
    unfold Dis.sendAll
    have h' : p.pdu.serialize prof buf = .ok ((q, .ok ()), buf ++ w) := by
      rcases C05_append_only p.kind p.pdu prof with ⟨e, he⟩ | ⟨q', r, w', hw⟩
      · rw [he] at h; cases h
      · rw [hw] at h
        rw [hw]
        obtain ⟨h1, h2⟩ := Prod.mk.inj (Except.ok.inj h)
        rw [List.nil_append] at h2
        rw [h1, h2]
    rw [M.bind_run, h']
    dsimp only
    rw [M.bind_run, ih, ← List.append_assoc]
    rfl

/-- While they are still arriving - `b` is what has come of them so far, in any pieces - the receiver has every PDU of which
all octets have come, and keeps what has come of the next. -/
theorem C66_as_they_arrive (ps qs : List AnyPdu) (prof : Profile) (b c : Bytes) (h : sendAll ps prof [] = .ok (.ok qs, b ++ c))
    (ht : ∀ p ∈ ps, p.kind.truthful p.pdu.body) (prof' : Profile) (pieces : List Bytes) (hp : pieces.flatten = b) :
    ∃ (n : Nat) (w left : Bytes), receiveWholePieces prof' [] pieces = ((qs.take n).map AnyPdu.received, left) ∧
      sendAll (ps.take n) prof [] = .ok (.ok (qs.take n), w) ∧ b = w ++ left ∧
      (n < ps.length → ∃ w', sendAll (ps.take (n + 1)) prof [] = .ok (.ok (qs.take (n + 1)), w') ∧ b.length < w'.length) := by
  rw [C66_any_pieces, hp]
  obtain ⟨w, hw, hs⟩ := sendAll_sends prof ps qs [] _ h
  rw [List.nil_append] at hw
  clear h hp
  suffices H : ∃ (n : Nat) (w left : Bytes), receiveWholes prof' b = ((qs.take n).map AnyPdu.received, left) ∧
      Sends prof (ps.take n) (qs.take n) w ∧ b = w ++ left ∧
      (n < ps.length → ∃ w', Sends prof (ps.take (n + 1)) (qs.take (n + 1)) w' ∧ b.length < w'.length) by
    obtain ⟨n, w, left, h1, h2, h3, h4⟩ := H
    refine ⟨n, w, left, h1, h2.sendAll [], h3, fun hn => ?_⟩
    obtain ⟨w', h5, h6⟩ := h4 hn
    exact ⟨w', h5.sendAll [], h6⟩
  induction hs generalizing b with
  | nil =>
    obtain ⟨rfl, _⟩ := List.append_eq_nil_iff.mp hw
    exact ⟨0, [], [], rfl, .nil, rfl, fun h => absurd h (by decide)⟩
  | @cons p ps qs q w v h hs ih =>
    by_cases hl : b.length < w.length
    · have hb : w = b ++ w.drop b.length := by
        have : b = w.take b.length := by
          have := congrArg (List.take b.length) hw
          rwa [List.take_left, List.take_append_of_le_length (by omega)] at this
        conv => lhs; rw [← List.take_append_drop b.length w, ← this]
      have hne : w.drop b.length ≠ [] := by
        intro e
        have := congrArg List.length e
        rw [List.length_drop, List.length_nil] at this
        omega
      have hcut := C66_cut_short p.kind p.pdu q prof b _ (ht p List.mem_cons_self) (hb ▸ h) hne prof'
      refine ⟨0, [], b, receiveWholes_none hcut, .nil, rfl, fun _ => ⟨w ++ [], ?_, by rw [List.append_nil]; exact hl⟩⟩
      rw [List.take_succ_cons, List.take_succ_cons]
      exact .cons h .nil
    · obtain ⟨b', rfl⟩ : ∃ b', b = w ++ b' := by
        refine ⟨b.drop w.length, ?_⟩
        have := congrArg (List.take w.length) hw
        rw [List.take_left, List.take_append_of_le_length (by omega)] at this
        conv => lhs; rw [← List.take_append_drop w.length b, this]
      rw [List.append_assoc] at hw
      obtain ⟨n, w', left, h1, h2, h3, h4⟩ := ih b' (fun x hx => ht x (List.mem_cons_of_mem _ hx)) (List.append_cancel_left hw)
      refine ⟨n + 1, w ++ w', left, ?_, .cons h h2, by rw [h3, List.append_assoc], fun hn => ?_⟩
      · rw [receiveWholes_some (C66_any_kind p.kind p.pdu q prof w (ht p List.mem_cons_self) h prof' b'), h1]
        rfl
      · obtain ⟨w'', h5, h6⟩ := h4 (by rw [List.length_cons] at hn; omega)
        exact ⟨w ++ w'', .cons h h5, by rw [List.length_append, List.length_append]; omega⟩

theorem PduKind.truthful_encodable (k : PduKind) {b : k.Body} (ht : k.truthful b) : Dis.encodable b := by
  by_cases hk : k.hasRecordSets = false
  · exact k.encodable hk b
  · cases k
    case TransferOwnership => exact fun s hs => ⟨(ht.2 s hs).1, Nat.le_of_eq (ht.2 s hs).2⟩
    case SetRecordReliable => exact fun s hs => ⟨(ht.2 s hs).1, Nat.le_of_eq (ht.2 s hs).2⟩
    all_goals exact absurd rfl hk

/-- All of it, from the sender's fields to the receiver's: PDUs of any of the sixty-six kinds, any number of them, if their
counts and lengths are true and each comes to 65535 octets at most, are sent, are what the sender filled in (only a transmitter
PDU is given the length of its modulation parameters), and are received complete and in order by any build of the
receiver, in whatever pieces they arrive. -/
theorem C66_sent_and_received (ps : List AnyPdu) (prof : Profile)
    (h : ∀ p ∈ ps, p.kind.truthful p.pdu.body ∧ p.kind.ieeeOctets + p.kind.listOctets p.pdu.body ≤ 65535) :
    ∃ (qs : List AnyPdu) (w : Bytes), sendAll ps prof [] = .ok (.ok qs, w) ∧ qs.length = ps.length ∧
      (∀ p q, (p, q) ∈ ps.zip qs → p.kind = q.kind ∧ (p.kind ≠ .Transmitter → q.content = p.content)) ∧
      ∀ (prof' : Profile) (pieces : List Bytes), pieces.flatten = w →
        receiveWholePieces prof' [] pieces = (qs.map AnyPdu.received, []) := by
  have hs : ∀ buf, ∃ (qs : List AnyPdu) (w : Bytes), sendAll ps prof buf = .ok (.ok qs, w) ∧ qs.length = ps.length ∧
      (∀ p q, (p, q) ∈ ps.zip qs → p.kind = q.kind ∧ (p.kind ≠ .Transmitter → q.content = p.content)) := by
    induction ps with
    | nil => exact fun buf => ⟨[], buf, rfl, rfl, fun _ _ h => (nomatch h)⟩
    | cons p ps ih =>
      intro buf
      obtain ⟨ht, hl⟩ := h p List.mem_cons_self
      have hs := Pdu.serialize_of_encodable p.pdu (p.kind.truthful_encodable ht)
        (by rw [p.kind.listOctets_eq]; omega) prof buf
      obtain ⟨qs, w, e, hlen, hq⟩ := ih (fun x hx => h x (List.mem_cons_of_mem _ hx))
        (buf ++ wire p.pdu.after.header ++ wire (sent p.pdu.after.body))
      refine ⟨⟨p.kind, p.pdu.after⟩ :: qs, w, ?_, by rw [List.length_cons, List.length_cons, hlen], ?_⟩
      · unfold sendAll
        rw [M.bind_run, hs]
        dsimp only
        rw [M.bind_run, e]
        rfl
      · intro p' q' hm
        rw [List.zip_cons_cons, List.mem_cons] at hm
        rcases hm with hm | hm
        · obtain ⟨rfl, rfl⟩ := Prod.mk.inj hm
          refine ⟨rfl, fun hk => ?_⟩
          unfold AnyPdu.content
          rw [show p'.pdu.after.body = p'.pdu.body from p'.kind.prep_id hk p'.pdu.body]
        · exact hq p' q' hm
  obtain ⟨qs, w, e, hlen, hq⟩ := hs []
  exact ⟨qs, w, e, hlen, hq, fun prof' pieces hp => C66_sequence ps qs prof w e (fun p hp => (h p hp).1) prof' pieces hp⟩

/-- The crate's own decoder of variable transmitter parameters does not read what its encoder writes: whatever the record, it
makes a record of type 0 without fields out of the first three octets, and leaves the others. -/
theorem C66_own_decoder_transmitter_parameters (x : VariableTransmitterParameters) (prof : Profile) (buf : Bytes) :
    ∃ w, x.serialize prof buf = .ok ((), buf ++ w) ∧
      w = octets 4 x.record_type.code ++ octets 2 x.record_length.toNat ++ x.record_specific_fields ∧
      ∀ prof' rest, ∃ y : VariableTransmitterParameters, y.record_type.code = 0 ∧ y.record_length = 0 ∧
        y.record_specific_fields = [] ∧ VariableTransmitterParameters.deserialize prof' (w ++ rest) = .ok (y, w.drop 3 ++ rest) ∧
        w.drop 3 ++ rest ≠ rest := by
  have hw : wire x = octets 4 x.record_type.code ++ octets 2 x.record_length.toNat ++ x.record_specific_fields := by
    rw [List.append_assoc, ← wire_bytes x.record_specific_fields]
    rfl
  refine ⟨wire x, x.writes prof buf, hw, fun prof' rest => ?_⟩
  have hs : wire x = List.replicate 3 0 ++ (octets 1 x.record_type.code ++ octets 2 x.record_length.toNat ++
      x.record_specific_fields) := by
    rw [hw, octets_split (by decide +kernel) 3 x.record_type]
    simp only [List.append_assoc]
  refine ⟨⟨VariableParameterRecordType.spec.ofCode 0, 0, []⟩, by decide, rfl, rfl, ?_, ?_⟩
  · rw [hs]; rfl
  · rw [hs]
    intro e
    have := congrArg List.length e
    simp only [List.length_append, List.length_drop, List.length_replicate, octets_length] at this
    omega

/-! ### Concrete messages -/

/-- A set data PDU with three datums, and two octets of something else. -/
example := C66_exactly .SetData rfl ⟨PduHeader.default 0, truthfulSetData⟩ _ ⟨true⟩ _
  (by show _ ∧ _ ∧ ∀ d ∈ truthfulSetData.variable_datum_records, d.length_bits.toNat = 8 * d.value.length
      decide +kernel)
  (Pdu.serialize_of_encodable ⟨PduHeader.default 0, truthfulSetData⟩ (PduKind.encodable .SetData rfl _)
    (by show 12 + SetDataPdu.fieldsLen truthfulSetData < 65536; decide +kernel) ⟨true⟩ []) ⟨false⟩ [1, 2]

/-- An entity state PDU with a marking and an articulation parameter. -/
example := C66_any_kind .EntityState ⟨PduHeader.default 0, truthfulEntityState⟩ _ ⟨true⟩ _
  ⟨by decide +kernel, by decide +kernel⟩
  (Pdu.serialize_of_encodable ⟨PduHeader.default 0, truthfulEntityState⟩ (PduKind.encodable .EntityState rfl _)
    (by show 12 + EntityStatePdu.fieldsLen truthfulEntityState < 65536; decide +kernel) ⟨true⟩ []) ⟨false⟩ [1, 2]

/-- A transmitter PDU with modulation parameters, an antenna pattern and a record. -/
example := C66_exactly .Transmitter rfl ⟨PduHeader.default 0, truthfulTransmitter⟩ _ ⟨true⟩ _
  (by refine ⟨?_, ?_, rfl, rfl, ?_⟩
      · intro m h; cases h; exact ⟨by decide, by decide⟩
      · intro m h; cases h; decide
      · show ∀ r ∈ truthfulTransmitter.variable_transmitter_parameters, r.record_length.toNat = r.record_specific_fields.length
        decide +kernel)
  (Pdu.serialize_of_encodable ⟨PduHeader.default 0, truthfulTransmitter⟩ (PduKind.encodable .Transmitter rfl _)
    (by show 12 + TransmitterPdu.fieldsLen truthfulTransmitter < 65536; decide +kernel) ⟨true⟩ []) ⟨false⟩ [1, 2]

/-- A minefield data PDU with two mines and a trip wire. -/
example := C66_exactly .MinefieldData rfl ⟨PduHeader.default 0, truthfulMinefield⟩ _ ⟨true⟩ _
  (by simp only [PduKind.truthful, MinefieldDataPdu.truthful, reported]
      decide +kernel)
  (Pdu.serialize_of_encodable ⟨PduHeader.default 0, truthfulMinefield⟩ (PduKind.encodable .MinefieldData rfl _)
    (by show 12 + MinefieldDataPdu.fieldsLen truthfulMinefield < 65536; decide +kernel) ⟨true⟩ []) ⟨false⟩ [1, 2]

/-- Four PDUs with lists, in a row; the first is padded beyond its declared length (C23). -/
example := C66_sent_and_received [⟨.SetData, ⟨PduHeader.default 0, truthfulSetData⟩⟩,
      ⟨.EntityState, ⟨PduHeader.default 0, truthfulEntityState⟩⟩, ⟨.Signal, sampleSignal⟩,
      ⟨.ElectromagneticEmissions, ⟨PduHeader.default 0, truthfulEmissions⟩⟩] ⟨true⟩ (by
  refine List.forall_mem_cons.mpr ⟨⟨?_, by decide +kernel⟩, List.forall_mem_cons.mpr ⟨⟨?_, by decide +kernel⟩,
    List.forall_mem_cons.mpr ⟨⟨trivial, by decide +kernel⟩, List.forall_mem_cons.mpr ⟨⟨?_, by decide +kernel⟩, fun _ h => nomatch h⟩⟩⟩⟩
  · show _ ∧ _ ∧ ∀ d ∈ truthfulSetData.variable_datum_records, d.length_bits.toNat = 8 * d.value.length
    decide +kernel
  · exact ⟨by decide +kernel, by decide +kernel⟩
  · show _ ∧ ∀ s ∈ truthfulEmissions.systems, s.number_of_beams.toNat = s.beam_data_records.length ∧
      ∀ b ∈ s.beam_data_records, b.number_of_track_jam_targets.toNat = b.track_jam_targets.length
    decide +kernel)

/-- The first twenty octets of a signal PDU. -/
example := C66_cut_short .Signal sampleSignal _ ⟨true⟩ (sampleOctets.take 20) (sampleOctets.drop 20) trivial
  sampleSignal_serialize_nil (by decide) ⟨false⟩

/-- A signal PDU and half of another, octet by octet: the first is received, the octets of the other are kept. -/
example : ∃ (qs : List AnyPdu) (n : Nat) (left : Bytes),
    receiveWholePieces ⟨false⟩ [] ((sampleOctets ++ sampleOctets.take 20).map fun x => [x]) =
      ((qs.take n).map AnyPdu.received, left) ∧ qs.length = 2 ∧ n = 1 ∧ left = sampleOctets.take 20 := by
  obtain ⟨q, hq⟩ : ∃ q, sampleSignal.serialize ⟨true⟩ [] = .ok ((q, .ok ()), sampleOctets) := ⟨_, sampleSignal_serialize_nil⟩
  have hs : Sends ⟨true⟩ [⟨.Signal, sampleSignal⟩, ⟨.Signal, sampleSignal⟩] [⟨.Signal, q⟩, ⟨.Signal, q⟩]
      (sampleOctets ++ (sampleOctets ++ [])) := .cons hq (.cons hq .nil)
  obtain ⟨n, w, left, h1, h2, h3, h4⟩ := C66_as_they_arrive _ _ ⟨true⟩ (sampleOctets ++ sampleOctets.take 20) (sampleOctets.drop 20)
    (hs.sendAll []) (by intro p hp; simp only [List.mem_cons, List.not_mem_nil, or_false, or_self] at hp; subst hp; trivial)
    ⟨false⟩ ((sampleOctets ++ sampleOctets.take 20).map fun x => [x]) (by decide)
  refine ⟨_, n, left, h1, rfl, ?_⟩
  have hs1 : Sends ⟨true⟩ [⟨.Signal, sampleSignal⟩] [⟨.Signal, q⟩] (sampleOctets ++ []) := .cons hq .nil
  rcases n with _ | _ | n
  · obtain ⟨w', h5, h6⟩ := h4 (by decide)
    have e := (hs1.sendAll []).symm.trans h5
    have := (Prod.mk.inj (Except.ok.inj e)).2
    rw [← this] at h6
    exact absurd h6 (by decide)
  · have e := (hs1.sendAll []).symm.trans h2
    have := (Prod.mk.inj (Except.ok.inj e)).2
    rw [← this] at h3
    exact ⟨rfl, (List.append_cancel_left h3).symm⟩
  · have e := (hs.sendAll []).symm.trans (by simpa using h2)
    have := (Prod.mk.inj (Except.ok.inj e)).2
    rw [← this] at h3
    have := congrArg List.length h3
    rw [List.length_append (bs := left)] at this
    exact absurd this (by have : (sampleOctets ++ sampleOctets.take 20).length < ([] ++ (sampleOctets ++ (sampleOctets ++ []))).length := by decide
                          omega)

/-- An information operations report: the whole of what is sent of it. -/
example := C66_whole .InformationOperationsReport ⟨PduHeader.default 0, truthfulReport⟩ _ ⟨true⟩ _
  (by show _ ∧ ∀ r ∈ truthfulReport.io_records.standard_variable_records,
        r.record_length.toNat = r.record_specific_fields.length
      decide +kernel)
  (Pdu.serialize_of_encodable ⟨PduHeader.default 0, truthfulReport⟩ (PduKind.encodable .InformationOperationsReport rfl _)
    (by show 12 + InformationOperationsReportPdu.fieldsLen truthfulReport < 65536; decide +kernel) ⟨true⟩ []) ⟨false⟩ [1, 2]

/-- What was received is received whatever follows. -/
example : ∃ u, sampleOctets ++ [1, 2] = u ++ [1, 2] ∧ 12 ≤ u.length ∧
    ∀ rest', ∃ p, receiveWhole ⟨false⟩ (u ++ rest') = some (p, rest') := by
  obtain ⟨u, h1, h2, h3⟩ := C66_ignores_what_follows ⟨false⟩ (sampleOctets ++ [1, 2]) [1, 2] _
    (C66_any_kind .Signal sampleSignal _ ⟨true⟩ _ trivial sampleSignal_serialize_nil ⟨false⟩ [1, 2])
  exact ⟨u, h1, h2, fun r => ⟨_, h3 r⟩⟩

/-- Two signal PDUs, cut after 20 octets. -/
example : ∃ qs : List AnyPdu, qs.length = 2 ∧
    receiveWholePieces ⟨false⟩ [] [(sampleOctets ++ sampleOctets).take 20, [], (sampleOctets ++ sampleOctets).drop 20] =
      (qs.map AnyPdu.received, []) := by
  obtain ⟨q, hq⟩ : ∃ q, sampleSignal.serialize ⟨true⟩ [] = .ok ((q, .ok ()), sampleOctets) := ⟨_, sampleSignal_serialize_nil⟩
  have hs : Sends ⟨true⟩ [⟨.Signal, sampleSignal⟩, ⟨.Signal, sampleSignal⟩] [⟨.Signal, q⟩, ⟨.Signal, q⟩]
      (sampleOctets ++ (sampleOctets ++ [])) := .cons hq (.cons hq .nil)
  exact ⟨_, rfl, C66_sequence _ _ ⟨true⟩ _ (hs.sendAll [])
    (by intro p hp; simp only [List.mem_cons, List.not_mem_nil, or_false, or_self] at hp; subst hp; trivial)
    ⟨false⟩ _ (by decide)⟩

end Dis
