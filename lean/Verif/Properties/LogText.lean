import Verif.Properties.Printing
import Verif.Properties.Examples
import Verif.Spec.LogText
/-
C69: what the examples print can be read.
-/
namespace Dis
variable {Addr : Type}

/-! ### The fixed parts of the lines -/

theorem log_from : strBytes "Transmitter from " = strBytes "Transmitter" ++ strBytes " from " ∧
    strBytes "Signal from " = strBytes "Signal" ++ strBytes " from " ∧
    strBytes "Receiver from " = strBytes "Receiver" ++ strBytes " from " ∧
    strBytes "IntercomSignal from " = strBytes "IntercomSignal" ++ strBytes " from " ∧
    strBytes "IntercomControl from " = strBytes "IntercomControl" ++ strBytes " from " ∧
    strBytes "Unknown or non-radio PDU (" = strBytes "Unknown" ++ strBytes " or non-radio PDU (" := by decide +kernel

/-- a fixed part that begins with a space -/
def spaced (s : String) : Bool := (strBytes s).head? == some 32 && !(strBytes s).contains 10

theorem spaced_stops {s : String} (h : spaced s = true) (r : Text) : Stops (strBytes s ++ r) := by
  simp only [spaced, Bool.and_eq_true, beq_iff_eq] at h
  cases e : strBytes s with
  | nil => rw [e] at h; exact nomatch h.1
  | cons b t =>
    rw [e] at h
    have hb : b = 32 := Option.some.inj h.1
    subst hb
    exact (by decide : stopOctet 32 = true)

theorem spaced_line {s : String} (h : spaced s = true) : 10 ∉ strBytes s := by
  simp only [spaced, Bool.and_eq_true, Bool.not_eq_true'] at h
  intro hm
  rw [List.contains_iff_mem.mpr hm] at h
  exact nomatch h.2

/-- the address ends at its colon and the space after it -/
theorem addr_cut {σ : LogFmt Addr} (hσ : σ.Lawful) {s : String} {sp : Text} (hs : strBytes s = 58 :: 32 :: sp) {a b : Addr}
    {r r' : Text} (h : σ.addr a ++ (strBytes s ++ r) = σ.addr b ++ (strBytes s ++ r')) : σ.addr a = σ.addr b ∧ r = r' := by
  rw [hs] at h
  have h' : (σ.addr a ++ [58]) ++ (32 :: (sp ++ r)) = (σ.addr b ++ [58]) ++ (32 :: (sp ++ r')) := by
    rw [List.append_assoc, List.append_assoc]
    exact h
  have no : ∀ a, ∀ c ∈ σ.addr a ++ [58], (c == 32) = false := fun a c hc => by
    rcases List.mem_append.mp hc with hc | hc
    · cases e : c == 32 with
      | false => rfl
      | true => exact absurd (beq_iff_eq.mp e ▸ hc) (hσ.addr_octets a).1
    · rw [List.mem_singleton.mp hc]; rfl
  have e := cut (no a) (no b) (.inr ⟨32, _, rfl, rfl⟩) (.inr ⟨32, _, rfl, rfl⟩) h'
  exact ⟨List.append_cancel_right e.1, List.append_cancel_left (List.cons.inj e.2).2⟩

theorem entity_part : strBytes ": entity=" = 58 :: 32 :: strBytes "entity=" := by decide +kernel
theorem intercom_part : strBytes ": intercom=" = 58 :: 32 :: strBytes "intercom=" := by decide +kernel

theorem LogFmt.Lawful.oneLine {σ : LogFmt Addr} (hσ : σ.Lawful) : σ.oneLine.Lawful :=
  { hσ.toLawful with }

theorem LogFmt.Lawful.power_word {σ : LogFmt Addr} (hσ : σ.Lawful) (x : F32) : Word (σ.shownF32 x) :=
  ⟨(hσ.shownF32_octets x).1, fun b hb => floatOctets_word b ((hσ.shownF32_octets x).2 b hb)⟩

theorem LogFmt.Lawful.power_calm {σ : LogFmt Addr} (hσ : σ.Lawful) {x y : F32} :
    σ.shownF32 x = σ.shownF32 y ↔ calm x = calm y := by
  constructor
  · intro h
    rcases hσ.shownF32_tells x y h with rfl | ⟨hx, hy⟩
    · rfl
    · rw [F32.calm_nan hx, F32.calm_nan hy]
  · intro h
    have same : ∀ x, σ.shownF32 (calm x) = σ.shownF32 x := fun x => by
      by_cases hx : x.nanBits
      · rw [F32.calm_nan hx]
        exact hσ.shownF32_nan _ _ (by decide +kernel) hx
      · rw [F32.calm_num hx]
    rw [← same x, h, same y]

/-! ### One line -/

theorem LogLine.text_line {σ : LogFmt Addr} (hσ : σ.Lawful) (l : LogLine Addr) : 10 ∉ l.text σ := by
  have nums : ∀ n, 10 ∉ decimal n := fun n h => ((decimal_word n).2 _ h).2 rfl
  have addrs := fun a => (hσ.addr_octets a).2
  have he : ∀ e : EntityId, 10 ∉ RDebug.text σ.oneLine e := fun e => Legible.line hσ.oneLine rfl e
  cases l <;> unfold LogLine.text
  case Transmitter =>
    exact not_mem_append (by decide +kernel) <| not_mem_append (addrs _) <| not_mem_append (by decide +kernel) <|
      not_mem_append (he _) <| not_mem_append (by decide +kernel) <| not_mem_append (nums _) <|
      not_mem_append (by decide +kernel) (Legible.line hσ.oneLine rfl _)
  case Signal =>
    exact not_mem_append (by decide +kernel) <| not_mem_append (addrs _) <| not_mem_append (by decide +kernel) <|
      not_mem_append (he _) <| not_mem_append (by decide +kernel) <| not_mem_append (nums _) <|
      not_mem_append (by decide +kernel) (nums _)
  case Receiver =>
    exact not_mem_append (by decide +kernel) <| not_mem_append (addrs _) <| not_mem_append (by decide +kernel) <|
      not_mem_append (he _) <| not_mem_append (by decide +kernel) <| not_mem_append (Legible.line hσ.oneLine rfl _) <|
      not_mem_append (by decide +kernel) (fun h => ((hσ.power_word _).2 _ h).2 rfl)
  case IntercomSignal =>
    exact not_mem_append (by decide +kernel) <| not_mem_append (addrs _) <| not_mem_append (by decide +kernel) <|
      not_mem_append (he _) <| not_mem_append (by decide +kernel) (nums _)
  case IntercomControl =>
    exact not_mem_append (by decide +kernel) <| not_mem_append (addrs _) <| not_mem_append (by decide +kernel) <|
      not_mem_append (he _) <| not_mem_append (by decide +kernel) <| not_mem_append (Legible.line hσ.oneLine rfl _) <|
      not_mem_append (by decide +kernel) (Legible.line hσ.oneLine rfl _)
  case Unknown =>
    exact not_mem_append (by decide +kernel) <| not_mem_append (nums _) <| not_mem_append (by decide +kernel) (addrs _)

theorem other_word {s t u v : String} (hs : nameLike s = true) (ht : nameLike t = true) (hu : spaced u = true)
    (hv : spaced v = true) {r r' : Text} (h : (strBytes s ++ strBytes u) ++ r = (strBytes t ++ strBytes v) ++ r') :
    strBytes s = strBytes t := by
  rw [List.append_assoc, List.append_assoc] at h
  exact ((nameLike.word hs).cut (nameLike.word ht) (spaced_stops hu _) (spaced_stops hv _) h).1

theorem decimal_last {n m : Nat} {r r' : Text} (hr : Stops r) (hr' : Stops r') (h : decimal n ++ r = decimal m ++ r') :
    n = m ∧ r = r' := have e := (decimal_word n).cut (decimal_word m) hr hr' h; ⟨decimal_inj e.1, e.2⟩

/-- Two lines have the same text exactly when they show the same. -/
theorem C69_line (σ : LogFmt Addr) (hσ : σ.Lawful) (l l' : LogLine Addr) :
    l.text σ = l'.text σ ↔ l.shown σ = l'.shown σ := by
  have hσ' := hσ.oneLine
  constructor
  · intro h
    have ends : ∀ {t t' : Text}, t = t' → t ++ [] = t' ++ [] := fun e => by rw [e]
    cases l <;> cases l'
    case Transmitter.Transmitter a e f s a' e' f' s' =>
      obtain ⟨h1, h⟩ := addr_cut hσ entity_part (List.append_cancel_left h)
      obtain ⟨h2, h⟩ := Legible.reads hσ' (x := e) (y := e') (spaced_stops (s := " freq=") (by decide +kernel) _)
        (spaced_stops (s := " freq=") (by decide +kernel) _) h
      obtain ⟨h3, h⟩ := decimal_last (spaced_stops (s := " state=") (by decide +kernel) _)
        (spaced_stops (s := " state=") (by decide +kernel) _) (List.append_cancel_left h)
      obtain ⟨h4, -⟩ := Legible.reads hσ' (x := s) (y := s') (r := []) (r' := []) trivial trivial
        (ends (List.append_cancel_left h))
      have h2 : e = e' := h2
      have h4 : s = s' := h4
      simp only [LogLine.shown, h1, h2, UInt64.toNat_inj.mp h3, h4]
    case Signal.Signal a e f s a' e' f' s' =>
      obtain ⟨h1, h⟩ := addr_cut hσ entity_part (List.append_cancel_left h)
      obtain ⟨h2, h⟩ := Legible.reads hσ' (x := e) (y := e') (spaced_stops (s := " samples=") (by decide +kernel) _)
        (spaced_stops (s := " samples=") (by decide +kernel) _) h
      obtain ⟨h3, h⟩ := decimal_last (spaced_stops (s := " data_length=") (by decide +kernel) _)
        (spaced_stops (s := " data_length=") (by decide +kernel) _) (List.append_cancel_left h)
      have h4 := decimal_inj (List.append_cancel_left h)
      have h2 : e = e' := h2
      simp only [LogLine.shown, h1, h2, UInt16.toNat_inj.mp h3, UInt16.toNat_inj.mp h4]
    case Receiver.Receiver a e f s a' e' f' s' =>
      obtain ⟨h1, h⟩ := addr_cut hσ entity_part (List.append_cancel_left h)
      obtain ⟨h2, h⟩ := Legible.reads hσ' (x := e) (y := e') (spaced_stops (s := " state=") (by decide +kernel) _)
        (spaced_stops (s := " state=") (by decide +kernel) _) h
      obtain ⟨h3, h⟩ := Legible.reads hσ' (x := f) (y := f') (spaced_stops (s := " power=") (by decide +kernel) _)
        (spaced_stops (s := " power=") (by decide +kernel) _) (List.append_cancel_left h)
      have h4 := hσ.power_calm.mp (List.append_cancel_left h)
      have h2 : e = e' := h2
      have h3 : f = f' := h3
      simp only [LogLine.shown, h1, h2, h3, h4]
    case IntercomSignal.IntercomSignal a e f a' e' f' =>
      obtain ⟨h1, h⟩ := addr_cut hσ intercom_part (List.append_cancel_left h)
      obtain ⟨h2, h⟩ := Legible.reads hσ' (x := e) (y := e') (spaced_stops (s := " samples=") (by decide +kernel) _)
        (spaced_stops (s := " samples=") (by decide +kernel) _) h
      have h3 := decimal_inj (List.append_cancel_left h)
      have h2 : e = e' := h2
      simp only [LogLine.shown, h1, h2, UInt16.toNat_inj.mp h3]
    case IntercomControl.IntercomControl a e f s a' e' f' s' =>
      obtain ⟨h1, h⟩ := addr_cut hσ intercom_part (List.append_cancel_left h)
      obtain ⟨h2, h⟩ := Legible.reads hσ' (x := e) (y := e') (spaced_stops (s := " command=") (by decide +kernel) _)
        (spaced_stops (s := " command=") (by decide +kernel) _) h
      obtain ⟨h3, h⟩ := Legible.reads hσ' (x := f) (y := f')
        (spaced_stops (s := " transmit_state=") (by decide +kernel) _)
        (spaced_stops (s := " transmit_state=") (by decide +kernel) _) (List.append_cancel_left h)
      obtain ⟨h4, -⟩ := Legible.reads hσ' (x := s) (y := s') (r := []) (r' := []) trivial trivial
        (ends (List.append_cancel_left h))
      have h2 : e = e' := h2
      have h3 : f = f' := h3
      have h4 : s = s' := h4
      simp only [LogLine.shown, h1, h2, h3, h4]
    case Unknown.Unknown n a n' a' =>
      obtain ⟨h1, h⟩ := decimal_last (spaced_stops (s := " bytes) from ") (by decide +kernel) _)
        (spaced_stops (s := " bytes) from ") (by decide +kernel) _) (List.append_cancel_left h)
      have h2 := List.append_cancel_left h
      simp only [LogLine.shown, h1, h2]
    all_goals
      simp only [LogLine.text, log_from.1, log_from.2.1, log_from.2.2.1, log_from.2.2.2.1, log_from.2.2.2.2.1,
        log_from.2.2.2.2.2] at h
      exact absurd (other_word (by decide +kernel) (by decide +kernel) (by decide +kernel) (by decide +kernel) h)
        (by decide +kernel)
  · intro h
    cases l <;> cases l' <;> simp only [LogLine.shown, reduceCtorEq, LogLine.Transmitter.injEq, LogLine.Signal.injEq,
      LogLine.Receiver.injEq, LogLine.IntercomSignal.injEq, LogLine.IntercomControl.injEq, LogLine.Unknown.injEq] at h
    case Transmitter.Transmitter => simp only [LogLine.text, h]
    case Signal.Signal => simp only [LogLine.text, h]
    case Receiver.Receiver => simp only [LogLine.text, h, hσ.power_calm.mpr h.2.2.2]
    case IntercomSignal.IntercomSignal => simp only [LogLine.text, h]
    case IntercomControl.IntercomControl => simp only [LogLine.text, h]
    case Unknown.Unknown => simp only [LogLine.text, h]

/-- Two logs have the same text exactly when they have the same number of lines and line by line show the same: the whole
output of the server, however long, can be taken apart again. -/
theorem C69_log (σ : LogFmt Addr) (hσ : σ.Lawful) : ∀ ls ls' : List (LogLine Addr),
    logText σ ls = logText σ ls' ↔ ls.map (LogLine.shown σ) = ls'.map (LogLine.shown σ)
  | [], [] => by simp
  | [], l :: ls => by
    refine ⟨fun h => ?_, fun h => nomatch h⟩
    exact absurd h.symm (by simp [logText])
  | l :: ls, [] => by
    refine ⟨fun h => ?_, fun h => nomatch h⟩
    exact absurd h (by simp [logText])
  | l :: ls, l' :: ls' => by
    have ih := C69_log σ hσ ls ls'
    have no : ∀ l : LogLine Addr, ∀ c ∈ l.text σ, (c == 10) = false := fun l c hc => by
      cases e : c == 10 with
      | false => rfl
      | true => exact absurd (beq_iff_eq.mp e ▸ hc) (LogLine.text_line hσ l)
    have step : ∀ (l : LogLine Addr) ls, logText σ (l :: ls) = l.text σ ++ (10 :: logText σ ls) := fun l ls => by
      simp [logText]
    rw [step, step, List.map_cons, List.map_cons, List.cons.injEq, ← ih, ← C69_line σ hσ]
    constructor
    · intro h
      have e := cut (no l) (no l') (.inr ⟨10, _, rfl, rfl⟩) (.inr ⟨10, _, rfl, rfl⟩) h
      exact ⟨e.1, (List.cons.inj e.2).2⟩
    · intro h
      rw [h.1, h.2]

/-- No line of the log is broken: its text has as many line feeds as it has lines. -/
theorem C69_line_feeds (σ : LogFmt Addr) (hσ : σ.Lawful) : ∀ ls : List (LogLine Addr),
    (logText σ ls).count 10 = ls.length
  | [] => rfl
  | l :: ls => by
    have step : logText σ (l :: ls) = l.text σ ++ (10 :: logText σ ls) := by simp [logText]
    rw [step, List.count_append, List.count_eq_zero.mpr (LogLine.text_line hσ l), List.count_cons_self,
      C69_line_feeds σ hσ ls, List.length_cons]
    omega

/-! ### The other examples -/

theorem echo_parts : strBytes "/" = [47] ∧ strBytes " bytes to " = 32 :: strBytes "bytes to " := by decide +kernel

/-- What the echo server prints tells how many datagrams it has sent back, of which sizes and to whom, in order. -/
theorem C69_echo (σ : LogFmt Addr) (hσ : σ.Lawful) : ∀ l l' : List (Bytes × Addr),
    echoText σ l = echoText σ l' ↔
      l.map (fun e => (e.1.length, σ.addr e.2)) = l'.map (fun e => (e.1.length, σ.addr e.2))
  | [], [] => by simp
  | [], e :: l => ⟨fun h => absurd h.symm (by simp [echoText]), fun h => nomatch h⟩
  | e :: l, [] => ⟨fun h => absurd h (by simp [echoText]), fun h => nomatch h⟩
  | e :: l, e' :: l' => by
    have ih := C69_echo σ hσ l l'
    have step : ∀ (e : Bytes × Addr) l, echoText σ (e :: l) = strBytes "Echoed " ++ ((decimal e.1.length ++ [47]) ++
        (decimal e.1.length ++ (32 :: (strBytes "bytes to " ++ (σ.addr e.2 ++ (10 :: echoText σ l)))))) := fun e l => by
      simp [echoText, echo_parts]
    rw [step, step, List.map_cons, List.map_cons, List.cons.injEq, Prod.mk.injEq, ← ih]
    constructor
    · intro h
      have h := List.append_cancel_left h
      rw [List.append_assoc, List.append_assoc] at h
      have no : ∀ n, ∀ b ∈ decimal n, (b == 47) = false := fun n b hb => by
        have := (digitsUpTo_octets 10 (by omega) (by omega) n n (Nat.le_refl _)).2 b hb
        obtain ⟨d, hd, rfl⟩ := this
        exact (by decide +kernel : ∀ d < 16, (digitOctet d == 47) = false) d hd
      obtain ⟨h1, h⟩ := cut (no _) (no _) (.inr ⟨47, _, rfl, rfl⟩) (.inr ⟨47, _, rfl, rfl⟩) h
      have h := (List.cons.inj h).2
      obtain ⟨-, h⟩ := decimal_last (by exact (by decide : stopOctet 32 = true)) (by exact (by decide : stopOctet 32 = true)) h
      have h := List.append_cancel_left (List.cons.inj h).2
      have noline : ∀ a, ∀ b ∈ σ.addr a, (b == 10) = false := fun a b hb => by
        cases e : b == 10 with
        | false => rfl
        | true => exact absurd (beq_iff_eq.mp e ▸ hb) (hσ.addr_octets a).2
      obtain ⟨h2, h⟩ := cut (noline _) (noline _) (.inr ⟨10, _, rfl, rfl⟩) (.inr ⟨10, _, rfl, rfl⟩) h
      exact ⟨⟨decimal_inj h1, h2⟩, (List.cons.inj h).2⟩
    · intro ⟨⟨h1, h2⟩, h3⟩
      rw [h1, h2, h3]

/-- What the radio client prints tells which PDUs it has sent, in order. -/
theorem C69_sent : ∀ ks ks' : List PduKind, sentText ks = sentText ks' ↔ ks = ks'
  | [], [] => by simp
  | [], k :: ks => ⟨fun h => absurd h.symm (by simp [sentText]), fun h => nomatch h⟩
  | k :: ks, [] => ⟨fun h => absurd h (by simp [sentText]), fun h => nomatch h⟩
  | k :: ks, k' :: ks' => by
    have ih := C69_sent ks ks'
    have step : ∀ (k : PduKind) ks, sentText (k :: ks) =
        strBytes "Sent " ++ (strBytes (PduDebug.name k.Body) ++ (10 :: sentText ks)) := fun k ks => by simp [sentText]
    refine ⟨fun h => ?_, fun h => by rw [h]⟩
    rw [step, step] at h
    have h := List.append_cancel_left h
    have noline : ∀ k : PduKind, ∀ b ∈ strBytes (PduDebug.name k.Body), (b == 10) = false := fun k b hb => by
      have := ((nameLike.word (LegibleBody.named (B := k.Body))).2 b hb).2
      simpa using this
    obtain ⟨h1, h⟩ := cut (noline _) (noline _) (.inr ⟨10, _, rfl, rfl⟩) (.inr ⟨10, _, rfl, rfl⟩) h
    have e := nodup_map_inj (allNew_nodup (t := .leaf) trivial names_checked).1 k.mem_all k'.mem_all (by simp only [h1])
    rw [e, ih.mp (List.cons.inj h).2]

/-- What the UDP client shows tells which acknowledgment it has received, but for the two reserved status bits. -/
theorem C69_client (σ : Fmt) (hσ : σ.Lawful) (place : Text) (p q : Pdu AcknowledgePdu) :
    UdpClient.shownText σ place p = UdpClient.shownText σ place q ↔
      ({ p with header := { p.header with status_record := ⟨p.header.status_record.bits &&& 63⟩ } } : Pdu AcknowledgePdu) =
        { q with header := { q.header with status_record := ⟨q.header.status_record.bits &&& 63⟩ } } := by
  have hσ' : ({ σ with alternate := true } : Fmt).Lawful := { hσ with }
  refine Iff.trans ⟨fun h => ?_, fun h => ?_⟩ (C68_shows _ hσ' .Acknowledge p q)
  · exact List.append_cancel_right (List.append_cancel_left (List.append_cancel_left h))
  · unfold UdpClient.shownText
    exact congrArg (fun t => place ++ (strBytes " = " ++ (t ++ [10]))) h

/-! ### Concrete cases -/

/-- addresses printed as their number -/
def sampleLogFmt : LogFmt Nat where
  toFmt := sampleFmt false
  shownF32 := (sampleFmt false).f32
  addr := decimal

theorem sampleLogFmt_lawful : sampleLogFmt.Lawful where
  toLawful := sampleFmt_lawful false
  shownF32_octets := (sampleFmt_lawful false).f32_octets
  shownF32_nan := (sampleFmt_lawful false).f32_nan
  shownF32_tells := (sampleFmt_lawful false).f32_tells
  addr_octets a := ⟨fun h => absurd ((decimal_word a).2 _ h).1 (by decide), fun h => ((decimal_word a).2 _ h).2 rfl⟩

example : echoText sampleLogFmt [([1, 2, 3], 80), ([], 81)] =
    strBytes "Echoed 3/3 bytes to 80\nEchoed 0/0 bytes to 81\n" := by decide +kernel
example : sentText [.Transmitter, .IntercomControl] = strBytes "Sent TransmitterPdu\nSent IntercomControlPdu\n" := by
  decide +kernel

example : logText sampleLogFmt [.Unknown 7 80, .IntercomSignal 81 ⟨⟨1, 2⟩, 3⟩ 4] =
    strBytes ("Unknown or non-radio PDU (7 bytes) from 80\nIntercomSignal from 81: intercom=EntityId { " ++
      "simulation_address: SimulationAddress { site_id: 1, application_id: 2 }, entity_id: 3 } samples=4\n") := by
  decide +kernel

/-- so a receiver's line with power NaN does not tell which NaN, but everything else does -/
example (x y : F32) : (LogLine.Receiver 80 ⟨⟨1, 2⟩, 3⟩ dflt x).text sampleLogFmt =
    (LogLine.Receiver 80 ⟨⟨1, 2⟩, 3⟩ dflt y).text sampleLogFmt ↔ calm x = calm y := by
  rw [C69_line sampleLogFmt sampleLogFmt_lawful]
  simp only [LogLine.shown, LogLine.Receiver.injEq, true_and]

end Dis
