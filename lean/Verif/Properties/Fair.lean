import Verif.Properties.Schedules
/-
C61: the examples under a fair network.  What can be completed is completed: a client of the echo server, or a
client of the radio server, is served in every execution in which no call fails, if only nothing is put off
for ever.
-/
namespace Dis

/-- Weak fairness: what from some moment on could happen at any time, does happen. -/
def NotPutOff (possible happens : Nat → Prop) : Prop := ∀ n, (∀ m, n ≤ m → possible m) → ∃ m, n ≤ m ∧ happens m

section
variable {I Addr Err : Type} [DecidableEq I] (S : EchoSetting I Addr)

/-- An infinite execution: at each moment a step is made, or none. -/
structure EchoRun where
  at_ : Nat → EchoWorld I Addr Err
  start : at_ 0 = EchoWorld.start
  next : ∀ n, at_ (n + 1) = at_ n ∨ EchoWorld.Step S (at_ n) (at_ (n + 1))

namespace EchoRun
variable {S} (r : EchoRun (Err := Err) S)

/-- Client `i` is running and has its one send call under way. -/
def Sending (i : I) (n : Nat) : Prop := ((r.at_ n).client S i).2 = .waiting ∧ ∀ x, .sent x ∉ (r.at_ n).events i
/-- That call completes. -/
def Sends (i : I) (n : Nat) : Prop := ∃ x, (r.at_ (n + 1)).events i = (r.at_ n).events i ++ [.sent x]
/-- The server is running; client `i` has sent its datagram, which has not arrived yet. -/
def UnderWay (i : I) (n : Nat) : Prop := (r.at_ n).server.2 = .waiting ∧ .sent (.ok ()) ∈ (r.at_ n).events i ∧
  ∀ payload x, .datagram payload (S.addr i) x ∉ (r.at_ n).served
/-- It arrives. -/
def Arrives (i : I) (n : Nat) : Prop := ∃ payload x, UdpClient.send (S.prof i) (S.made i) = .ok payload ∧
  (r.at_ (n + 1)).served = (r.at_ n).served ++ [.datagram payload (S.addr i) x]
/-- Client `i` is running and receiving, and the server has sent to it. -/
def Returning (i : I) (n : Nat) : Prop := ((r.at_ n).client S i).2 = .waiting ∧ ((r.at_ n).client S i).1 = none ∧
  ∃ payload, (payload, S.addr i) ∈ (r.at_ n).server.1
/-- Something the server has sent to it is delivered. -/
def Delivered (i : I) (n : Nat) : Prop := ∃ payload, (payload, S.addr i) ∈ (r.at_ n).server.1 ∧
  (r.at_ (n + 1)).events i = (r.at_ n).events i ++ [.received (.ok payload)]

/-- The execution is fair to client `i`: its send call, its datagram and the answer are not put off for ever. -/
structure FairTo (i : I) : Prop where
  send : NotPutOff (r.Sending i) (r.Sends i)
  arrive : NotPutOff (r.UnderWay i) (r.Arrives i)
  deliver : NotPutOff (r.Returning i) (r.Delivered i)

variable {r}

theorem reachable : ∀ n, (r.at_ n).Reachable S
  | 0 => by rw [r.start]; exact .none
  | n + 1 => by
    rcases r.next n with h | h
    · rw [h]; exact reachable n
    · exact .more (reachable n) h

theorem grows_one (n : Nat) (i : I) : ∃ l, (r.at_ (n + 1)).events i = (r.at_ n).events i ++ l := by
  have key : ∀ (f : I → List (ClientEvent Err)) (j : I) (ev : ClientEvent Err),
      ∃ l, setAt f j (f j ++ [ev]) i = f i ++ l := by
    intro f j ev
    by_cases h : i = j
    · subst h; exact ⟨_, setAt_self ..⟩
    · exact ⟨[], by rw [setAt_other _ h, List.append_nil]⟩
  rcases r.next n with h | h
  · exact ⟨[], by rw [h, List.append_nil]⟩
  · generalize r.at_ n = w, r.at_ (n + 1) = w' at h
    cases h with
    | send j x _ _ => exact key ..
    | arrive => exact ⟨[], (List.append_nil _).symm⟩
    | stranger => exact ⟨[], (List.append_nil _).symm⟩
    | serverError => exact ⟨[], (List.append_nil _).symm⟩
    | deliver => exact key ..
    | clientError => exact key ..

theorem grows {n m : Nat} (h : n ≤ m) (i : I) : ∃ l, (r.at_ m).events i = (r.at_ n).events i ++ l := by
  induction h with
  | refl => exact ⟨[], (List.append_nil _).symm⟩
  | step _ ih =>
    obtain ⟨l, hl⟩ := ih
    obtain ⟨l', hl'⟩ := grows_one (r := r) _ i
    exact ⟨l ++ l', by rw [hl', hl, List.append_assoc]⟩

theorem keeps {n m : Nat} (h : n ≤ m) {i : I} {ev : ClientEvent Err} (he : ev ∈ (r.at_ n).events i) :
    ev ∈ (r.at_ m).events i := by
  obtain ⟨l, hl⟩ := grows (r := r) h i
  rw [hl]
  exact List.mem_append_left _ he

theorem served_grows {n m : Nat} (h : n ≤ m) : ∃ l, (r.at_ m).served = (r.at_ n).served ++ l := by
  induction h with
  | refl => exact ⟨[], (List.append_nil _).symm⟩
  | @step m _ ih =>
    obtain ⟨l, hl⟩ := ih
    have : ∃ l', (r.at_ (m + 1)).served = (r.at_ m).served ++ l' := by
      rcases r.next m with h | h
      · exact ⟨[], by rw [h, List.append_nil]⟩
      · generalize r.at_ m = w, r.at_ (m + 1) = w' at h
        cases h with
        | send => exact ⟨[], (List.append_nil _).symm⟩
        | arrive => exact ⟨_, rfl⟩
        | stranger => exact ⟨_, rfl⟩
        | serverError => exact ⟨_, rfl⟩
        | deliver => exact ⟨[], (List.append_nil _).symm⟩
        | clientError => exact ⟨[], (List.append_nil _).symm⟩
    obtain ⟨l', hl'⟩ := this
    exact ⟨l ++ l', by rw [hl', hl, List.append_assoc]⟩

/-- A client that has not failed has seen no failure. -/
theorem smooth (i : I) (hf : ∀ n e, ((r.at_ n).client S i).2 ≠ .failed e) : ∀ n, Smooth ((r.at_ n).events i) := by
  intro n
  induction n with
  | zero => rw [r.start]; exact fun e => ⟨fun h => (nomatch h), fun h => (nomatch h)⟩
  | succ n ih =>
    rcases r.next n with h | h
    · rw [h]; exact ih
    · have hf := hf (n + 1)
      generalize r.at_ n = w, r.at_ (n + 1) = w' at h ih hf
      cases h with
      | arrive => exact ih
      | stranger => exact ih
      | serverError => exact ih
      | send j x hr h1 =>
        by_cases hj : i = j
        · subst hj
          show Smooth (setAt w.events i _ i)
          unfold EchoWorld.client at hf
          simp only [setAt_self] at hf ⊢
          rcases x with e | ⟨⟩
          · have := (C59_failure (S.prof i) (S.later i) (w.events i) [] ih e).1 (by
              rw [List.eq_nil_iff_forall_not_mem]
              exact fun x hx => h1 x ((mem_sendSide _ _).mp hx))
            exact absurd (congrArg Prod.snd this) (hf e)
          · exact ih.snoc fun e => ⟨nofun, nofun⟩
        · show Smooth (setAt w.events j _ i)
          rw [setAt_other _ hj]; exact ih
      | deliver j d hr h1 =>
        by_cases hj : i = j
        · subst hj
          show Smooth (setAt w.events i _ i)
          rw [setAt_self]
          exact ih.snoc fun e => ⟨nofun, nofun⟩
        · show Smooth (setAt w.events j _ i)
          rw [setAt_other _ hj]; exact ih
      | clientError j e hr h1 =>
        by_cases hj : i = j
        · subst hj
          unfold EchoWorld.client at hf
          simp only [setAt_self] at hf
          have := (C59_failure (S.prof i) (S.later i) (w.events i) [] ih e).2 ((shown_none ih).mp h1)
          exact absurd (congrArg Prod.snd this) (hf e)
        · show Smooth (setAt w.events j _ i)
          rw [setAt_other _ hj]; exact ih

end EchoRun

/-- An execution of the echo server with any number of clients, in which the server keeps running and no call of
client `i` fails: if it is fair to client `i`, that client ends, having shown the PDU it sent, whatever happens
to the others and whatever else is sent to the server. -/
theorem C61_echo (hS : ∀ i j, S.addr i = S.addr j → i = j) (r : EchoRun (Err := Err) S) (i : I)
    (hs : ∀ n, (r.at_ n).server.2 = .waiting) (hf : ∀ n e, ((r.at_ n).client S i).2 ≠ .failed e)
    (fair : r.FairTo i) :
    ∃ n, ∀ m, n ≤ m → (r.at_ m).client S i = (some (Pdu.new (S.made i)), .finished) := by
  have sm := EchoRun.smooth i hf
  obtain ⟨d, hd, hne, hdl, hv⟩ := UdpClient.datagram (S.prof i) (S.made i)
  -- the send call completes
  have one : ∃ n, .sent (.ok ()) ∈ (r.at_ n).events i := by
    refine Classical.byContradiction fun hn => ?_
    have hn : ∀ n, .sent (.ok ()) ∉ (r.at_ n).events i := fun n h => hn ⟨n, h⟩
    obtain ⟨m, _, x, hx⟩ := fair.send 0 fun m _ =>
      ⟨(C59_client (S.prof i) (S.later i) _ (sm m)).2.2.mpr fun h => hn m h.1, by
        rintro (e | ⟨⟩) h
        · exact (sm m e).1 h
        · exact hn m h⟩
    have hm : .sent x ∈ (r.at_ (m + 1)).events i := by
      rw [hx]; exact List.mem_append_right _ (List.mem_singleton.mpr rfl)
    rcases x with e | ⟨⟩
    · exact (sm _ e).1 hm
    · exact hn _ hm
  obtain ⟨n1, h1⟩ := one
  -- the datagram arrives, and is sent back
  have two : ∃ n x, Turn.datagram d (S.addr i) x ∈ (r.at_ n).served := by
    refine Classical.byContradiction fun hn => ?_
    obtain ⟨m, _, payload, x, hp, hm⟩ := fair.arrive n1 fun m hm => ⟨hs m, EchoRun.keeps hm h1, fun payload x hx =>
      have e := ((EchoWorld.own S hS _ (EchoRun.reachable m) i).1 payload x hx).1
      hn ⟨m, x, by rw [hd] at e; cases e; exact hx⟩⟩
    rw [hd] at hp
    cases hp
    exact hn ⟨m + 1, x, by rw [hm]; exact List.mem_append_right _ (List.mem_singleton.mpr rfl)⟩
  obtain ⟨n2, x, h2⟩ := two
  have back : ∀ m, n2 ≤ m → (d, S.addr i) ∈ (r.at_ m).server.1 := by
    intro m hm
    obtain ⟨l, hl⟩ := EchoRun.served_grows (r := r) hm
    obtain ⟨_, ds, hds⟩ := EchoServer.run_waiting _ _ _ (hs m)
    have e : (r.at_ m).server = (ds.map (fun d => (d.1.take 1024, d.2)), .waiting) := by
      unfold EchoWorld.server
      rw [← C33_echo (Err := Err), hds]
    have hm' : Turn.datagram d (S.addr i) x ∈ (r.at_ m).served := by
      rw [hl]
      exact List.mem_append_left _ h2
    rw [hds, List.mem_map] at hm'
    obtain ⟨y, hy, hye⟩ := hm'
    rw [e]
    refine List.mem_map.mpr ⟨y, hy, ?_⟩
    simp only [Turn.datagram.injEq] at hye
    obtain ⟨y1, y2, _⟩ := hye
    rw [y1, y2, List.take_of_length_le hdl]
  -- the answer is delivered
  have three : ∃ n, n1 ≤ n ∧ ∃ y ∈ payloads ((r.at_ n).events i), y ≠ [] := by
    refine Classical.byContradiction fun hn => ?_
    have hn : ∀ n, n1 ≤ n → ∀ y ∈ payloads ((r.at_ n).events i), y = [] := by
      intro n h y hy
      exact Classical.byContradiction fun hne => hn ⟨n, h, y, hy, hne⟩
    obtain ⟨m, lm, y, hy, hm⟩ := fair.deliver (max n1 n2) fun m hm => by
      have hz := hn m (by omega)
      exact ⟨(C59_client (S.prof i) (S.later i) _ (sm m)).2.2.mpr fun h => by
        obtain ⟨y, hy, hne⟩ := h.2
        exact hne (hz y hy), (shown_none (sm m)).mpr hz, d, back m (by omega)⟩
    have hmem : .received (.ok y) ∈ (r.at_ (m + 1)).events i := by
      rw [hm]; exact List.mem_append_right _ (List.mem_singleton.mpr rfl)
    have hy0 := hn (m + 1) (by omega) y ((mem_payloads _ _).mpr hmem)
    subst hy0
    have := ((EchoWorld.own S hS _ (EchoRun.reachable (m + 1)) i).2 [] hmem).1
    rw [hd] at this
    cases this
    exact hne rfl
  obtain ⟨n3, l3, y, hy, hyne⟩ := three
  refine ⟨n3, fun m hm => ?_⟩
  have hf' := (C59_client (S.prof i) (S.later i) _ (sm m)).2.1.mpr ⟨EchoRun.keeps (Nat.le_trans l3 hm) h1, y,
    (mem_payloads _ _).mpr (EchoRun.keeps hm ((mem_payloads _ _).mp hy)), hyne⟩
  exact Prod.ext ((C59_echo_safe S hS _ (EchoRun.reachable m)).2.1 i hf') hf'

/-- There are such executions, whatever the setting. -/
theorem C61_echo_possible (i : I) : ∃ r : EchoRun (Err := Err) S,
    (∀ n, (r.at_ n).server.2 = .waiting) ∧ (∀ n e, ((r.at_ n).client S i).2 ≠ .failed e) ∧ r.FairTo i := by
  obtain ⟨d, hd, hne, hdl, hv⟩ := UdpClient.datagram (S.prof i) (S.made i)
  let w0 : EchoWorld I Addr Err := EchoWorld.start
  let w1 : EchoWorld I Addr Err := ⟨[], setAt w0.events i ([] ++ [.sent (.ok ())])⟩
  let w2 : EchoWorld I Addr Err := ⟨[] ++ [.datagram d (S.addr i) (.ok ())], w1.events⟩
  let w3 : EchoWorld I Addr Err := ⟨w2.served, setAt w2.events i (w2.events i ++ [.received (.ok d)])⟩
  have e1 : w1.events i = [.sent (.ok ())] := setAt_self ..
  have e3 : w3.events i = [.sent (.ok ()), .received (.ok d)] := by
    show setAt w1.events i (w1.events i ++ [.received (.ok d)]) i = _
    rw [setAt_self, e1]; rfl
  have sm : Smooth [ClientEvent.sent (Err := Err) (.ok ()), .received (.ok d)] := fun e =>
    ⟨fun h => by simp at h, fun h => by simp at h⟩
  have sm1 : Smooth [ClientEvent.sent (Err := Err) (.ok ())] := fun e => ⟨fun h => by simp at h, fun h => by simp at h⟩
  have c0 : (w0.client S i).2 = .waiting := rfl
  have c1 : ∀ w : EchoWorld I Addr Err, w.events i = [.sent (.ok ())] → w.client S i = (none, .waiting) := by
    intro w hw
    unfold EchoWorld.client
    rw [hw]
    exact Prod.ext ((shown_none sm1).mpr fun d hd => by simp [payloads] at hd)
      ((C59_client _ _ _ sm1).2.2.mpr fun h => by
        obtain ⟨_, d, hd, _⟩ := h
        simp [payloads] at hd)
  have c3 : (w3.client S i).2 = .finished := by
    unfold EchoWorld.client
    rw [e3]
    exact (C59_client _ _ _ sm).2.1.mpr ⟨List.mem_cons_self .., d, (mem_payloads _ _).mpr (.tail _ (.head _)), hne⟩
  have v2 : EchoWorld.server w2 = ([(d, S.addr i)], .waiting) := by
    have := C33_echo (Err := Err) [(d, S.addr i)]
    simp only [List.map_cons, List.map_nil, List.take_of_length_le hdl] at this
    exact this
  let at_ : Nat → EchoWorld I Addr Err := fun | 0 => w0 | 1 => w1 | 2 => w2 | _ => w3
  have late : ∀ n, at_ (n + 3) = w3 := fun _ => rfl
  have never : ∀ (P Q : Nat → Prop), (∀ n, 3 ≤ n → ¬ P n) → NotPutOff P Q := by
    intro P Q h n hp
    exact absurd (hp (n + 3) (by omega)) (h (n + 3) (by omega))
  refine ⟨⟨at_, rfl, fun n => ?_⟩, fun n => ?_, fun n e => ?_, ?_⟩
  · match n with
    | 0 => exact .inr (.send w0 i (.ok ()) c0 fun _ h => nomatch h)
    | 1 => exact .inr (.arrive w1 i d (.ok ()) rfl (by rw [e1]; exact .head _) hd)
    | 2 => exact .inr (.deliver w2 i d (congrArg Prod.snd (c1 w2 e1)) (congrArg Prod.fst (c1 w2 e1))
        (by rw [v2]; exact .head _))
    | n + 3 => exact .inl rfl
  · match n with
    | 0 => rfl
    | 1 => rfl
    | 2 => exact congrArg Prod.snd v2
    | n + 3 => exact congrArg Prod.snd v2
  · match n with
    | 0 => exact fun h => by rw [show ((at_ 0).client S i).2 = _ from c0] at h; cases h
    | 1 => exact fun h => by rw [show (at_ 1).client S i = _ from c1 w1 e1] at h; cases h
    | 2 => exact fun h => by rw [show (at_ 2).client S i = _ from c1 w2 e1] at h; cases h
    | n + 3 => exact fun h => by rw [show ((at_ (n + 3)).client S i).2 = _ from c3] at h; cases h
  · refine ⟨never _ _ fun n hn h => ?_, never _ _ fun n hn h => ?_, never _ _ fun n hn h => ?_⟩ <;>
      obtain ⟨n, rfl⟩ := Nat.exists_eq_add_of_le' hn
    · have : ((at_ (n + 3)).client S i).2 = .waiting := h.1
      rw [late, c3] at this
      cases this
    · exact h.2.2 d (.ok ()) (.head _)
    · have : ((at_ (n + 3)).client S i).2 = .waiting := h.1
      rw [late, c3] at this
      cases this

end

section radio
variable {I Addr Err : Type} [DecidableEq I] (S : RadioSetting I Addr)

/-- A server that waits has printed its line for every datagram received. -/
theorem RadioServer.run_reports (prof : Profile) : ∀ (rs : List (Received Addr Err)) buf pend,
    buf.length = 1024 → (RadioServer.run prof buf pend rs).2 = .waiting →
      (∃ l, RadioServer.handle prof buf pend = .ok l ∧ ∀ x ∈ l, x ∈ (RadioServer.run prof buf pend rs).1) ∧
      ∀ payload peer, .datagram payload peer ∈ rs → ∃ m, deserialize_pdu prof (payload.take 1024) = .ok m ∧
        report (min payload.length 1024) peer m ∈ (RadioServer.run prof buf pend rs).1
  | [], buf, pend, hb, h => by
    rw [RadioServer.run] at h ⊢
    cases hh : RadioServer.handle prof buf pend with
    | error e => rw [hh] at h; cases h
    | ok l => exact ⟨⟨l, rfl, fun _ h => h⟩, fun _ _ h => (nomatch h)⟩
  | .error x :: rs, buf, pend, hb, h => by
    rw [RadioServer.run] at h
    cases hh : RadioServer.handle prof buf pend with
    | error e => rw [hh] at h; cases h
    | ok l => rw [hh] at h; cases h
  | .datagram payload peer :: rs, buf, pend, hb, h => by
    rw [RadioServer.run] at h ⊢
    cases hh : RadioServer.handle prof buf pend with
    | error e => rw [hh] at h; cases h
    | ok l =>
      rw [hh] at h
      obtain ⟨⟨l', hl', hx⟩, ih⟩ := run_reports prof rs _ _ ((recvInto_length buf payload).trans hb) h
      refine ⟨⟨l, rfl, fun x hx => List.mem_append_left _ hx⟩, fun p a hm => ?_⟩
      rcases List.mem_cons.mp hm with hm | hm
      · cases hm
        rw [RadioServer.handle_recv prof buf payload peer hb] at hl'
        cases hr : deserialize_pdu prof (payload.take 1024) with
        | error e => rw [hr] at hl'; cases hl'
        | ok m =>
          rw [hr] at hl'
          cases hl'
          exact ⟨m, rfl, List.mem_append_right _ (hx _ (List.mem_singleton.mpr rfl))⟩
      · obtain ⟨m, h1, h2⟩ := ih p a hm
        exact ⟨m, h1, List.mem_append_right _ h2⟩

/-- An infinite execution: at each moment a step is made, or none. -/
structure RadioRun where
  at_ : Nat → RadioWorld I Addr Err
  start : at_ 0 = RadioWorld.start
  next : ∀ n, at_ (n + 1) = at_ n ∨ RadioWorld.Step S (at_ n) (at_ (n + 1))

namespace RadioRun
variable {S} (r : RadioRun (Err := Err) S)

/-- Client `i` is running, so it has a send call under way. -/
def Sending (i : I) (n : Nat) : Prop := ((r.at_ n).client S i).2 = .waiting
/-- The call completes. -/
def Sends (i : I) (n : Nat) : Prop := ∃ x, (r.at_ (n + 1)).results i = (r.at_ n).results i ++ [x]
/-- The server is running; client `i` has sent the datagram, which has not arrived yet. -/
def UnderWay (i : I) (payload : Bytes) (n : Nat) : Prop := ((r.at_ n).server S).2 = .waiting ∧
  payload ∈ ((r.at_ n).client S i).1.datagrams ∧ .datagram payload (S.addr i) ∉ (r.at_ n).served
/-- It arrives. -/
def Arrives (i : I) (payload : Bytes) (n : Nat) : Prop :=
  (r.at_ (n + 1)).served = (r.at_ n).served ++ [.datagram payload (S.addr i)]

/-- The execution is fair to client `i`: its send calls and its datagrams are not put off for ever. -/
structure FairTo (i : I) : Prop where
  send : NotPutOff (r.Sending i) (r.Sends i)
  arrive : ∀ payload, NotPutOff (r.UnderWay i payload) (r.Arrives i payload)

variable {r}

theorem grows {n m : Nat} (h : n ≤ m) (i : I) :
    (∃ l, (r.at_ m).results i = (r.at_ n).results i ++ l) ∧ ∃ l, (r.at_ m).served = (r.at_ n).served ++ l := by
  induction h with
  | refl => exact ⟨⟨[], (List.append_nil _).symm⟩, ⟨[], (List.append_nil _).symm⟩⟩
  | @step m _ ih =>
    obtain ⟨⟨l, hl⟩, ⟨k, hk⟩⟩ := ih
    have : (∃ l', (r.at_ (m + 1)).results i = (r.at_ m).results i ++ l') ∧
        ∃ l', (r.at_ (m + 1)).served = (r.at_ m).served ++ l' := by
      rcases r.next m with h | h
      · rw [h]; exact ⟨⟨[], (List.append_nil _).symm⟩, ⟨[], (List.append_nil _).symm⟩⟩
      · generalize r.at_ m = w, r.at_ (m + 1) = w' at h
        cases h with
        | send j x =>
          refine ⟨?_, ⟨[], (List.append_nil _).symm⟩⟩
          show ∃ l', setAt w.results j (w.results j ++ [x]) i = _
          by_cases h : i = j
          · subst h; exact ⟨_, setAt_self ..⟩
          · exact ⟨[], by rw [setAt_other _ h, List.append_nil]⟩
        | arrive => exact ⟨⟨[], (List.append_nil _).symm⟩, ⟨_, rfl⟩⟩
        | stranger => exact ⟨⟨[], (List.append_nil _).symm⟩, ⟨_, rfl⟩⟩
        | serverError => exact ⟨⟨[], (List.append_nil _).symm⟩, ⟨_, rfl⟩⟩
    obtain ⟨⟨l', hl'⟩, ⟨k', hk'⟩⟩ := this
    exact ⟨⟨l ++ l', by rw [hl', hl, List.append_assoc]⟩, ⟨k ++ k', by rw [hk', hk, List.append_assoc]⟩⟩

end RadioRun

/-- An execution of the radio server with any number of clients, in which the server keeps running and the network
is fair to client `i`: every PDU that client says it has sent is in the end reported, under its address and with
its values, even if a later call of the client fails. -/
theorem C61_radio_reported (r : RadioRun (Err := Err) S) (i : I) (hs : ∀ n, ((r.at_ n).server S).2 = .waiting)
    (fair : ∀ payload, NotPutOff (r.UnderWay i payload) (r.Arrives i payload)) (n : Nat) (k : PduKind)
    (hk : k ∈ ((r.at_ n).client S i).1.lines) :
    ∃ m, ∀ m', m ≤ m' → freshLine (S.addr i) k ∈ ((r.at_ m').server S).1 := by
  obtain ⟨ps, h1, h2, h3, h4⟩ := RadioClient.fresh (Err := Err) (Addr := Addr) (S.prof i) (S.made i)
  have hk' := hk
  unfold RadioWorld.client at hk'
  rw [h3, RadioClient.steps_eq] at hk'
  obtain ⟨p, hp, rfl⟩ := List.mem_map.mp hk'
  have hd : ∀ m, n ≤ m → p.2 ∈ ((r.at_ m).client S i).1.datagrams := by
    intro m hm
    obtain ⟨l, hl⟩ := (RadioRun.grows (r := r) hm i).1
    unfold RadioWorld.client
    rw [h3, RadioClient.steps_eq, hl]
    refine List.mem_map.mpr ⟨p, ?_, rfl⟩
    exact List.mem_of_mem_take (i := completed ((r.at_ n).results i)) (by
      rw [List.take_take, Nat.min_eq_left (completed_append ..)]; exact hp)
  have arr : ∃ m, .datagram p.2 (S.addr i) ∈ (r.at_ m).served := by
    refine Classical.byContradiction fun hn => ?_
    obtain ⟨m, _, hm⟩ := fair p.2 n fun m hm => ⟨hs m, hd m hm, fun h => hn ⟨m, h⟩⟩
    exact hn ⟨m + 1, by rw [hm]; exact List.mem_append_right _ (List.mem_singleton.mpr rfl)⟩
  obtain ⟨m, hm⟩ := arr
  refine ⟨m, fun m' hm' => ?_⟩
  obtain ⟨l, hl⟩ := (RadioRun.grows (r := r) hm' i).2
  obtain ⟨x, hx, hr⟩ := (RadioServer.run_reports S.server _ _ none (List.length_replicate ..) (hs m')).2 p.2 (S.addr i)
    (by rw [hl]; exact List.mem_append_left _ hm)
  obtain ⟨y, hy, hq⟩ := h4 p (List.mem_of_mem_take hp) S.server
  rw [hy] at hx
  cases hx
  rw [hq] at hr
  exact hr

/-- And if no call of the client fails either, the client ends, and all its five PDUs are reported. -/
theorem C61_radio (r : RadioRun (Err := Err) S) (i : I) (hs : ∀ n, ((r.at_ n).server S).2 = .waiting)
    (hf : ∀ n e, ((r.at_ n).client S i).2 ≠ .failed e) (fair : r.FairTo i) :
    ∃ m, ∀ m', m ≤ m' → ((r.at_ m').client S i).2 = .finished ∧
      ∀ k ∈ radioKinds, freshLine (S.addr i) k ∈ ((r.at_ m').server S).1 := by
  obtain ⟨ws, _, _, hr⟩ := C59_radio_client (Err := Err) (S.prof i) (S.made i)
  -- no error among the first results
  have ok : ∀ n, completed ((r.at_ n).results i) < 5 → completed ((r.at_ n).results i) = ((r.at_ n).results i).length := by
    intro n hl
    have hf := hf n
    unfold RadioWorld.client at hf
    rw [hr] at hf
    simp only [if_neg (Nat.not_le.mpr hl)] at hf
    clear hl
    generalize (r.at_ n).results i = l at hf
    induction l with
    | nil => rfl
    | cons x l ih =>
      rcases x with e | ⟨⟩
      · exact absurd rfl (hf e)
      · exact congrArg Nat.succ (ih hf)
  have more : ∀ k, k ≤ 5 → ∃ n, k ≤ completed ((r.at_ n).results i) := by
    intro k
    induction k with
    | zero => exact fun _ => ⟨0, Nat.zero_le _⟩
    | succ k ih =>
      intro hk
      obtain ⟨n, hn⟩ := ih (by omega)
      refine Classical.byContradiction fun hno => ?_
      have hno : ∀ m, completed ((r.at_ m).results i) < k + 1 := fun m => Nat.not_le.mp fun h => hno ⟨m, h⟩
      obtain ⟨m, lm, x, hx⟩ := fair.send n fun m _ => by
        have h5 : completed ((r.at_ m).results i) < 5 := by have := hno m; omega
        unfold RadioRun.Sending RadioWorld.client
        rw [hr]
        simp only [if_neg (Nat.not_le.mpr h5)]
        rw [List.getElem?_eq_none (by rw [ok m h5]; exact Nat.le_refl _)]
      have e1 := ok (m + 1) (by have := hno (m + 1); omega)
      have e2 := ok m (by have := hno m; omega)
      obtain ⟨l, hl⟩ := (RadioRun.grows (r := r) lm i).1
      have e3 := completed_append l ((r.at_ n).results i)
      rw [← hl] at e3
      have e4 := congrArg List.length hx
      rw [List.length_append, List.length_singleton] at e4
      have := hno (m + 1)
      omega
  obtain ⟨n, hn⟩ := more 5 (Nat.le_refl _)
  have fin : ∀ m, n ≤ m → 5 ≤ completed ((r.at_ m).results i) := by
    intro m hm
    obtain ⟨l, hl⟩ := (RadioRun.grows (r := r) hm i).1
    have := completed_append l ((r.at_ n).results i)
    rw [← hl] at this
    omega
  have lines : ((r.at_ n).client S i).1.lines = radioKinds := by
    unfold RadioWorld.client
    rw [hr]
    exact List.take_of_length_le hn
  have all : ∀ ks : List PduKind, (∀ k ∈ ks, k ∈ radioKinds) →
      ∃ m, ∀ m', m ≤ m' → ∀ k ∈ ks, freshLine (S.addr i) k ∈ ((r.at_ m').server S).1 := by
    intro ks
    induction ks with
    | nil => exact fun _ => ⟨0, fun _ _ _ h => (nomatch h)⟩
    | cons k ks ih =>
      intro h
      obtain ⟨m1, h1⟩ := ih fun x hx => h x (List.mem_cons_of_mem _ hx)
      obtain ⟨m2, h2⟩ := C61_radio_reported S r i hs fair.arrive n k (by rw [lines]; exact h k (List.mem_cons_self ..))
      refine ⟨max m1 m2, fun m hm x hx => ?_⟩
      rcases List.mem_cons.mp hx with rfl | hx
      · exact h2 m (by omega)
      · exact h1 m (by omega) x hx
  obtain ⟨m, hm⟩ := all radioKinds fun _ h => h
  refine ⟨max n m, fun m' h => ⟨?_, hm m' (by omega)⟩⟩
  unfold RadioWorld.client
  rw [hr]
  exact if_pos (fin m' (by omega))

/-- There are such executions, whatever the setting. -/
theorem C61_radio_possible (i : I) : ∃ r : RadioRun (Err := Err) S,
    (∀ n, ((r.at_ n).server S).2 = .waiting) ∧ (∀ n e, ((r.at_ n).client S i).2 ≠ .failed e) ∧ r.FairTo i := by
  obtain ⟨ps, h1, h2, h3, h4⟩ := RadioClient.fresh (Err := Err) (Addr := Addr) (S.prof i) (S.made i)
  obtain ⟨ws, g1, g2, hr⟩ := C59_radio_client (Err := Err) (S.prof i) (S.made i)
  have hps : ws = ps.map (·.2) := by rw [g1] at h2; cases h2; rfl
  let at_ : Nat → RadioWorld I Addr Err := fun n =>
    ⟨(ws.take (n - 5)).map fun d => .datagram d (S.addr i), setAt (fun _ => []) i (List.replicate (min n 5) (.ok ()))⟩
  have res : ∀ n, (at_ n).results i = List.replicate (min n 5) (.ok ()) := fun n =>
    setAt_self (fun _ => []) i (List.replicate (min n 5) (Except.ok ()))
  have comp : ∀ n, completed (List.replicate n (.ok () : Except Err Unit)) = n := by
    intro n
    induction n with
    | zero => rfl
    | succ n ih => exact congrArg Nat.succ ih
  have cl : ∀ n, (at_ n).client S i = (⟨ws.take (min n 5), radioKinds.take (min n 5)⟩,
      if 5 ≤ n then .finished else .waiting) := by
    intro n
    unfold RadioWorld.client
    rw [hr, res, comp, List.getElem?_eq_none (by rw [List.length_replicate]; exact Nat.le_refl _)]
    by_cases h : 5 ≤ n
    · rw [if_pos h, if_pos (by omega)]
    · rw [if_neg h, if_neg (by omega)]
  have sv : ∀ n, ((at_ n).server S).2 = .waiting := by
    intro n
    have := C32_history (Err := Err) S.server (fun d => (deserialize_pdu S.server (d.take 1024)).toOption.getD none)
      ((ws.take (n - 5)).map fun d => (d, S.addr i)) fun d hd => by
        obtain ⟨d, hd', rfl⟩ := List.mem_map.mp hd
        have hd := List.mem_of_mem_take hd'
        rw [hps] at hd
        obtain ⟨p, hp, rfl⟩ := List.mem_map.mp hd
        obtain ⟨m, hm, _⟩ := h4 p hp S.server
        rw [hm]; rfl
    rw [List.map_map] at this
    exact congrArg Prod.snd this
  have never : ∀ (P Q : Nat → Prop), (∀ n, 10 ≤ n → ¬ P n) → NotPutOff P Q := by
    intro P Q h n hp
    exact absurd (hp (n + 10) (by omega)) (h (n + 10) (by omega))
  refine ⟨⟨at_, ?_, fun n => ?_⟩, sv, fun n e => ?_, ?_⟩
  · show (⟨_, _⟩ : RadioWorld I Addr Err) = ⟨[], fun _ => []⟩
    congr 1
    funext j
    unfold setAt
    split <;> rfl
  · by_cases h : n < 5
    · refine .inr ?_
      have : at_ (n + 1) = { at_ n with results := setAt (at_ n).results i ((at_ n).results i ++ [.ok ()]) } := by
        show (⟨_, _⟩ : RadioWorld I Addr Err) = ⟨_, _⟩
        congr 1
        · show _ = List.map _ (ws.take (n - 5))
          rw [show n + 1 - 5 = 0 by omega, show n - 5 = 0 by omega]
        · rw [res, show min (n + 1) 5 = n + 1 by omega, show min n 5 = n by omega, List.replicate_succ']
          funext j
          unfold setAt
          split
          · rfl
          · rename_i hj
            show _ = setAt (fun _ => []) i (List.replicate (min n 5) (Except.ok ())) j
            rw [setAt_other _ hj]
      rw [this]
      exact .send _ i (.ok ()) (by rw [cl, if_neg (by omega)])
    · by_cases h' : n < 10
      · refine .inr ?_
        obtain ⟨m, rfl⟩ := Nat.exists_eq_add_of_le' (Nat.not_lt.mp h)
        have hm : m < ws.length := by omega
        have : at_ (m + 5 + 1) = { at_ (m + 5) with served := (at_ (m + 5)).served ++ [.datagram ws[m] (S.addr i)] } := by
          show (⟨_, _⟩ : RadioWorld I Addr Err) = ⟨_, _⟩
          congr 1
          · rw [show m + 5 + 1 - 5 = m + 1 by omega, List.take_add_one, List.getElem?_eq_getElem hm, List.map_append]
            show _ = List.map _ (ws.take (m + 5 - 5)) ++ _
            rw [show m + 5 - 5 = m by omega]
            rfl
          · show _ = setAt (fun _ => []) i (List.replicate (min (m + 5) 5) (Except.ok ()))
            rw [show min (m + 5 + 1) 5 = min (m + 5) 5 by omega]
        rw [this]
        refine .arrive _ i _ (sv _) ?_
        rw [cl, show min (m + 5) 5 = 5 by omega, List.take_of_length_le (by omega)]
        exact List.getElem_mem hm
      · refine .inl ?_
        show (⟨_, _⟩ : RadioWorld I Addr Err) = ⟨_, _⟩
        rw [List.take_of_length_le (by omega), List.take_of_length_le (by omega), show min (n + 1) 5 = min n 5 by omega]
  · show ((at_ n).client S i).2 ≠ _
    rw [cl]
    split <;> exact nofun
  · refine ⟨never _ _ fun n hn h => ?_, fun payload => never _ _ fun n hn h => ?_⟩
    · have h : ((at_ n).client S i).2 = .waiting := h
      rw [cl, if_pos (by omega)] at h
      cases h
    · obtain ⟨_, hm, hno⟩ := h
      have hm : payload ∈ ((at_ n).client S i).1.datagrams := hm
      rw [cl] at hm
      refine hno (List.mem_map.mpr ⟨payload, ?_, rfl⟩)
      rw [List.take_of_length_le (by omega)]
      exact List.mem_of_mem_take hm

end radio

end Dis
