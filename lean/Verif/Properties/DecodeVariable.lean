import Verif.Spec.CountedParts
import Verif.Properties.RelayVariable
import Verif.Properties.Needs
import Verif.Proofs.AgreeVariable
/-
C48 for the counted parts of messages: what a decoder makes of the octets after the fixed part.
-/
set_option maxRecDepth 8000
namespace Dis

theorem wire_sets (l : List RecordSpecificationElement) : wire l = l.flatMap setOctets := by
  show l.flatMap wire = _
  congr 1
  funext e
  show wire e.record_id ▹ wire e.record_set_serial_number ▹ wire e.record_length ▹ wire e.record_count ▹
    wire e.record_values = _
  rw [wire_bytes]
  simp only [setOctets, List.append_assoc]
  rfl

theorem wire_variableRecords (l : List StandardVariableRecords) :
    wire l = l.flatMap variableRecordWritten := by
  show l.flatMap wire = _
  congr 1
  funext e
  show wire e.record_type ▹ wire e.record_length ▹ wire e.record_specific_fields = _
  rw [wire_bytes]
  simp only [variableRecordWritten, List.append_assoc]
  rfl

/-- Counts and lengths agree with what is there. -/
def SetsAgree (checked : Bool) (r : RecordSpecification) : Prop :=
  r.number_of_record_sets.toNat = r.record_sets.length ∧
  ∀ e ∈ r.record_sets, e.record_values.length = e.record_length.toNat * e.record_count.toNat % 65536 ∧
    (checked = true → e.record_length.toNat * e.record_count.toNat < 65536)

/-- Facts about everything `RecordSpecification`'s decoder returns. -/
theorem RecordSpecification.found_yields (prof : Profile) :
    Yields prof (deserialize_field : Get RecordSpecification)  (SetsAgree prof.overflowChecks) := by
  obtain ⟨c⟩ := prof
  cases c
  · exact Yields.mono RecordSpecification.yields_wrapped fun r h =>
      ⟨h.1, fun e he => ⟨h.2 e he, fun h => nomatch h⟩⟩
  · exact Yields.mono RecordSpecification.yields fun r h =>
      ⟨h.1, fun e he => by
        obtain ⟨h1, h2⟩ := h.2 e he
        rw [← h2]
        exact ⟨(Nat.mod_eq_of_lt h1).symm, fun _ => h1⟩⟩

theorem RecordSpecification.setsFound {checked : Bool} {x : RecordSpecification} {found rest : Bytes}
    (h : SetsAgree checked x)
    (hf : found = wire x ++ rest) : SetsFound checked found x rest := by
  refine ⟨?_, h⟩
  rw [hf]
  show (wire x.number_of_record_sets ++ wire x.record_sets) ++ rest = _
  rw [wire_sets]
  show (octets 4 x.number_of_record_sets.toNat ++ _) ++ rest = _
  rw [h.1]

theorem StandardVariableSpecification.recordsFound {x : StandardVariableSpecification} {found rest : Bytes}
    (h : decodable x) (hf : found = wire x ++ rest) : RecordsFound found x rest := by
  obtain ⟨h1, h2⟩ := h
  refine ⟨?_, h1, fun e he => (h2 e he).symm⟩
  rw [hf]
  show (wire x.number_of_standard_variable_records ++ wire x.standard_variable_records) ++ rest = _
  rw [wire_variableRecords]
  show (octets 2 x.number_of_standard_variable_records.toNat ++ _) ++ rest = _
  rw [h1]

theorem PduKind.found_after (k : PduKind) {n : Nat} {π : k.Body → Bytes}
    (hπ : EndsWith n (PduBody.deserializeBody : Get k.Body) π) {prof : Profile} {b rest : Bytes}
    {p : Pdu k.Body} (hd : k.decode prof b = .ok (.ok p, rest)) : b.drop (12 + n) = π p.body ++ rest := by
  obtain ⟨_, b1⟩ := k.body_run hd
  obtain ⟨_, b3⟩ := hπ _ _ _ _ b1
  rwa [List.drop_drop] at b3

/-- Any octets a transfer ownership or set record PDU is decoded from: from octet 36 on they are the number of record
sets and the record sets decoded, one after the other, and what is left unread. -/
theorem C48_record_sets_decode (prof : Profile) (b rest : Bytes) :
    (∀ p : Pdu TransferOwnershipPdu, decodeAs TransferOwnershipPdu prof b = .ok (.ok p, rest) →
      SetsFound prof.overflowChecks (b.drop 36) p.body.record_information rest) ∧
    (∀ p : Pdu SetRecordReliablePdu, decodeAs SetRecordReliablePdu prof b = .ok (.ok p, rest) →
      SetsFound prof.overflowChecks (b.drop 36) p.body.record_sets rest) := by
  constructor
  · intro p hd
    refine RecordSpecification.setsFound ?_
      (PduKind.found_after .TransferOwnership TransferOwnershipPdu.endsWith (p := p) hd)
    exact PduKind.decoded_yields .TransferOwnership (p := p)
      (P := fun x : TransferOwnershipPdu => SetsAgree prof.overflowChecks x.record_information) (by
        iterate 6 refine Yields.any fun _ => ?_
        exact Yields.bind (RecordSpecification.found_yields prof) fun _ h => Yields.ret h) hd
  · intro p hd
    refine RecordSpecification.setsFound ?_
      (PduKind.found_after .SetRecordReliable SetRecordReliablePdu.endsWith (p := p) hd)
    exact PduKind.decoded_yields .SetRecordReliable (p := p)
      (P := fun x : SetRecordReliablePdu => SetsAgree prof.overflowChecks x.record_sets) (by
        iterate 7 refine Yields.any fun _ => ?_
        exact Yields.bind (RecordSpecification.found_yields prof) fun _ h => Yields.ret h) hd

/-- A set record message with one record set, of two records of three octets, and an octet that is not its own. -/
def C48_setRecord : Bytes :=
  [7, 1, 64, 10] ++ List.replicate 35 0 ++ [1] ++ [0, 0, 0, 5] ++ [0, 0, 0, 9] ++ [0, 3] ++ [0, 2] ++
    [1, 2, 3, 4, 5, 6] ++ [77]

example : (match decodeAs SetRecordReliablePdu ⟨true⟩ C48_setRecord with
    | .ok (.ok p, rest) => decide (rest = [77] ∧ p.body.record_sets = ⟨1, [⟨5, 9, 3, 2, [1, 2, 3, 4, 5, 6]⟩]⟩)
    | _ => false) = true := by decide +kernel

/-- In a build with overflow checks nothing is decoded from a product above 65535; in one without, no values. -/
example : (match decodeAs SetRecordReliablePdu ⟨true⟩ (C48_setRecord.take 48 ++ [1, 0, 1, 0]) with
    | .error .arithmeticOverflow => true
    | _ => false) = true ∧
    (match decodeAs SetRecordReliablePdu ⟨false⟩ (C48_setRecord.take 48 ++ [1, 0, 1, 0]) with
    | .ok (.ok p, rest) => decide (rest = [] ∧ p.body.record_sets = ⟨1, [⟨5, 9, 256, 256, []⟩]⟩)
    | _ => false) = true := by decide +kernel

/-- Any octets an information operations PDU is decoded from: from octet 38 (report) or 54 (action) on they are the
number of records and the records decoded, one after the other, and what is left unread. -/
theorem C48_variable_records_decode (prof : Profile) (b rest : Bytes) :
    (∀ p : Pdu InformationOperationsReportPdu,
      decodeAs InformationOperationsReportPdu prof b = .ok (.ok p, rest) →
      RecordsFound (b.drop 38) p.body.io_records rest) ∧
    (∀ p : Pdu InformationOperationsActionPdu,
      decodeAs InformationOperationsActionPdu prof b = .ok (.ok p, rest) →
      RecordsFound (b.drop 54) p.body.io_records rest) := by
  constructor
  · intro p hd
    refine StandardVariableSpecification.recordsFound ?_
      (PduKind.found_after .InformationOperationsReport InformationOperationsReportPdu.endsWith (p := p) hd)
    exact PduKind.decoded_yields .InformationOperationsReport (p := p)
      (P := fun x : InformationOperationsReportPdu => decodable x.io_records) (by
        iterate 8 refine Yields.any fun _ => ?_
        exact Yields.bind (StandardVariableSpecification.yields prof) fun _ h => Yields.ret h) hd
  · intro p hd
    refine StandardVariableSpecification.recordsFound ?_
      (PduKind.found_after .InformationOperationsAction InformationOperationsActionPdu.endsWith (p := p) hd)
    exact PduKind.decoded_yields .InformationOperationsAction (p := p)
      (P := fun x : InformationOperationsActionPdu => decodable x.io_records) (by
        iterate 11 refine Yields.any fun _ => ?_
        exact Yields.bind (StandardVariableSpecification.yields prof) fun _ h => Yields.ret h) hd

/-- An information operations report with two records, of two octets and of none. -/
example : (match decodeAs InformationOperationsReportPdu ⟨true⟩
      ([7, 1, 71, 13] ++ List.replicate 34 0 ++ [0, 2] ++ [0, 0, 0, 1, 0, 2, 8, 9] ++ [0, 0, 0, 4, 0, 0]) with
    | .ok (.ok p, rest) => decide (rest = [] ∧ p.body.io_records = ⟨2, [⟨1, 2, [8, 9]⟩, ⟨4, 0, []⟩]⟩)
    | _ => false) = true := by decide +kernel

/-- Any octets a transmitter PDU is decoded from: octet 100 says how many octets of modulation parameters there are,
those are the octets from 104 on (none decoded if there are none), the antenna pattern and the variable parameters
are always absent, and what follows is left unread. -/
theorem C48_transmitter_decode (prof : Profile) (b rest : Bytes) (p : Pdu TransmitterPdu)
    (hd : decodeAs TransmitterPdu prof b = .ok (.ok p, rest)) :
    let n := (b.getD 100 0).toNat
    p.body.modulation_parameters = (if n = 0 then none else some ⟨(b.drop 104).take n⟩) ∧
    p.body.antenna_pattern = none ∧ p.body.variable_transmitter_parameters = [] ∧
    104 + n ≤ b.length ∧ rest = b.drop (104 + n) := by
  intro n
  have h1 : b.drop 104 = wire p.body.modulation_parameters ++ rest :=
    PduKind.found_after .Transmitter TransmitterPdu.endsWith (p := p) hd
  have h2 : p.body.antenna_pattern = none ∧ p.body.variable_transmitter_parameters = [] ∧
      p.body.modulation_parameter_length.toNat = (wire p.body.modulation_parameters).length ∧
      p.body.modulation_parameters ≠ some ⟨[]⟩ :=
    PduKind.decoded_yields .Transmitter (p := p)
      (P := fun x : TransmitterPdu => x.antenna_pattern = none ∧ x.variable_transmitter_parameters = [] ∧
        x.modulation_parameter_length.toNat = (wire x.modulation_parameters).length ∧
        x.modulation_parameters ≠ some ⟨[]⟩) (by
        iterate 19 refine Yields.any fun _ => ?_
        refine Yields.bind (ModulationParameters.yields prof _) fun _ h => ?_
        refine Yields.bind (P := fun o => o = none) ?_ fun _ h1 => ?_
        · intro b o r e; cases e; rfl
        refine Yields.bind (P := fun o => o = []) ?_ fun _ h2 => ?_
        · intro b o r e; cases e; rfl
        exact Yields.ret ⟨h1, h2, h⟩) hd
  obtain ⟨hh, ht, _⟩ := C09_ok_only_own_type .Transmitter prof b p rest hd
  obtain ⟨c1, c2⟩ := C14_transmitter prof b hh ht
  have hl : 104 + n ≤ b.length := by
    rcases Nat.lt_or_ge b.length (104 + n) with h | h
    · rw [c1 h] at hd; cases hd
    · exact h
  obtain ⟨p', hp⟩ := c2 hl
  rw [hp] at hd
  simp only [Except.ok.injEq, Prod.mk.injEq] at hd
  have hr : rest = b.drop (104 + n) := hd.2.symm
  obtain ⟨e1, e2, e3, e4⟩ := h2
  refine ⟨?_, e1, e2, hl, hr⟩
  have hwl : (wire p.body.modulation_parameters).length = n := by
    have := congrArg List.length h1
    rw [List.length_append, hr, List.length_drop, List.length_drop] at this
    omega
  have hw : wire p.body.modulation_parameters = (b.drop 104).take n := by
    rw [h1, ← hwl, List.take_left']
    rfl
  clear_value n
  revert hw; revert hwl; revert e4
  cases p.body.modulation_parameters with
  | none =>
    intro e4 hwl hw
    have : n = 0 := hwl.symm
    rw [if_pos this]
  | some m =>
    intro e4 hwl hw
    obtain ⟨l⟩ := m
    have hw : wire l = (b.drop 104).take n := hw
    have hwl : (wire l).length = n := hwl
    rw [wire_bytes] at hw hwl
    rw [if_neg, ← hw]
    rintro rfl
    exact e4 (by rw [List.length_eq_zero_iff.mp hwl])

/-- A transmitter PDU with eight octets of modulation parameters, followed by an octet. -/
example : (match decodeAs TransmitterPdu ⟨true⟩ (C49_transmitter 112 ++ [9]) with
    | .ok (.ok p, rest) => decide (rest = [9] ∧ (C49_transmitter 112).getD 100 0 = 8 ∧
        p.body.modulation_parameters = some ⟨(C49_transmitter 112).drop 104⟩)
    | _ => false) = true := by decide +kernel

/-! ### Such a description fits one value only -/

/-- Two runs of elements of which each ends where it says. -/
theorem flatMap_unique {α : Type} {f : α → Bytes} {P Q : α → Prop}
    (hf : ∀ x y, P x → Q y → ∀ r r', f x ++ r = f y ++ r' → x = y ∧ r = r') :
    ∀ (l l' : List α) (r r' : Bytes), (∀ x ∈ l, P x) → (∀ x ∈ l', Q x) → l.length = l'.length →
      l.flatMap f ++ r = l'.flatMap f ++ r' → l = l' ∧ r = r'
  | [], [], _, _, _, _, _, h => ⟨rfl, h⟩
  | x :: l, y :: l', r, r', h1, h2, hl, h => by
    rw [List.flatMap_cons, List.flatMap_cons, List.append_assoc, List.append_assoc] at h
    obtain ⟨e, h'⟩ := hf _ _ (h1 x List.mem_cons_self) (h2 y List.mem_cons_self) _ _ h
    obtain ⟨rfl, rfl⟩ := flatMap_unique hf l l' r r' (fun x hx => h1 x (List.mem_cons_of_mem _ hx))
      (fun x hx => h2 x (List.mem_cons_of_mem _ hx)) (by simpa using hl) h'
    exact ⟨by rw [e], rfl⟩

theorem octets_unique {n a b : Nat} {r r' : Bytes} (ha : a < 256 ^ n) (hb : b < 256 ^ n)
    (h : octets n a ++ r = octets n b ++ r') : a = b ∧ r = r' := by
  obtain ⟨h1, h2⟩ := List.append_inj h (by rw [octets_length, octets_length])
  refine ⟨?_, h2⟩
  have := congrArg beVal h1
  rwa [octets_eq, octets_eq, beVal_beBytes, beVal_beBytes, Nat.mod_eq_of_lt ha, Nat.mod_eq_of_lt hb] at this

theorem u16_unique {a b : UInt16} {r r' : Bytes} (h : octets 2 a.toNat ++ r = octets 2 b.toNat ++ r') :
    a = b ∧ r = r' := by
  obtain ⟨h1, h2⟩ := octets_unique (by have := a.toNat_lt; simpa using this) (by have := b.toNat_lt; simpa using this) h
  exact ⟨UInt16.toNat.inj h1, h2⟩

theorem u32_unique {a b : UInt32} {r r' : Bytes} (h : octets 4 a.toNat ++ r = octets 4 b.toNat ++ r') :
    a = b ∧ r = r' := by
  obtain ⟨h1, h2⟩ := octets_unique (by have := a.toNat_lt; simpa using this) (by have := b.toNat_lt; simpa using this) h
  exact ⟨UInt32.toNat.inj h1, h2⟩

/-- The two descriptions fit one value only: octets that are a counted part of a message are so in one way. -/
theorem C48_counted_parts_unique (found : Bytes) :
    (∀ c c' x x' rest rest', SetsFound c found x rest → SetsFound c' found x' rest' → x = x' ∧ rest = rest') ∧
    (∀ x x' rest rest', RecordsFound found x rest → RecordsFound found x' rest' → x = x' ∧ rest = rest') := by
  constructor
  · intro c c' x x' rest rest' ⟨h1, h2, h3⟩ ⟨h1', h2', h3'⟩
    rw [h1, List.append_assoc, List.append_assoc, ← h2, ← h2'] at h1'
    obtain ⟨hn, h⟩ := u32_unique h1'
    obtain ⟨hl, hr⟩ := flatMap_unique
      (P := fun e => e.record_values.length = e.record_length.toNat * e.record_count.toNat % 65536)
      (Q := fun e => e.record_values.length = e.record_length.toNat * e.record_count.toNat % 65536)
      (fun a b ha hb r r' h => by
        obtain ⟨a1, a2, a3, a4, a5⟩ := a
        obtain ⟨b1, b2, b3, b4, b5⟩ := b
        simp only [setOctets, List.append_assoc] at h ha hb
        obtain ⟨e1, k1⟩ := u32_unique h
        obtain ⟨e2, k2⟩ := u32_unique k1
        obtain ⟨e3, k3⟩ := u16_unique k2
        obtain ⟨e4, k4⟩ := u16_unique k3
        subst e1 e2 e3 e4
        obtain ⟨rfl, rfl⟩ := List.append_inj k4 (ha.trans hb.symm)
        exact ⟨rfl, rfl⟩) _ _ _ _ (fun e he => (h3 e he).1) (fun e he => (h3' e he).1)
      (by rw [← h2, ← h2', hn]) h
    obtain ⟨xn, xs⟩ := x
    obtain ⟨yn, ys⟩ := x'
    cases hn
    cases hl
    exact ⟨rfl, hr⟩
  · intro x x' rest rest' ⟨h1, h2, h3⟩ ⟨h1', h2', h3'⟩
    rw [h1, List.append_assoc, List.append_assoc, ← h2, ← h2'] at h1'
    obtain ⟨hn, h⟩ := u16_unique h1'
    obtain ⟨hl, hr⟩ := flatMap_unique
      (P := fun e => e.record_specific_fields.length = e.record_length.toNat)
      (Q := fun e => e.record_specific_fields.length = e.record_length.toNat)
      (fun a b ha hb r r' h => by
        obtain ⟨a1, a2, a3⟩ := a
        obtain ⟨b1, b2, b3⟩ := b
        simp only [variableRecordWritten, List.append_assoc] at h ha hb
        obtain ⟨e1, k1⟩ := u32_unique h
        obtain ⟨e2, k2⟩ := u16_unique k1
        subst e1 e2
        obtain ⟨rfl, rfl⟩ := List.append_inj k2 (ha.trans hb.symm)
        exact ⟨rfl, rfl⟩) _ _ _ _ h3 h3' (by rw [← h2, ← h2', hn]) h
    obtain ⟨xn, xs⟩ := x
    obtain ⟨yn, ys⟩ := x'
    cases hn
    cases hl
    exact ⟨rfl, hr⟩

theorem SetsFound.same {c c' : Bool} {f f' tail rest rest' : Bytes} {x x' : RecordSpecification}
    (h : SetsFound c f x rest) (h' : SetsFound c' f' x' rest')
    (hn : x.number_of_record_sets = x'.number_of_record_sets) (ht : f.drop 4 = tail ++ rest)
    (ht' : f'.drop 4 = tail ++ rest') : x = x' := by
  obtain ⟨h1, h2, h3⟩ := h
  obtain ⟨h1', h2', h3'⟩ := h'
  have t1 : x.record_sets.flatMap setOctets = tail := by
    rw [h1, List.append_assoc, List.drop_left' (octets_length _ _)] at ht
    exact List.append_cancel_right ht
  have t2 : x'.record_sets.flatMap setOctets = tail := by
    rw [h1', List.append_assoc, List.drop_left' (octets_length _ _)] at ht'
    exact List.append_cancel_right ht'
  refine ((C48_counted_parts_unique (octets 4 x.record_sets.length ++ x.record_sets.flatMap setOctets ++ [])).1
    c c' x x' [] [] ⟨rfl, h2, h3⟩ ⟨?_, h2', h3'⟩).1
  rw [t1, t2, ← h2, ← h2', hn]

theorem RecordsFound.same {f f' tail rest rest' : Bytes} {x x' : StandardVariableSpecification}
    (h : RecordsFound f x rest) (h' : RecordsFound f' x' rest')
    (hn : x.number_of_standard_variable_records = x'.number_of_standard_variable_records)
    (ht : f.drop 2 = tail ++ rest) (ht' : f'.drop 2 = tail ++ rest') : x = x' := by
  obtain ⟨h1, h2, h3⟩ := h
  obtain ⟨h1', h2', h3'⟩ := h'
  have t1 : x.standard_variable_records.flatMap variableRecordWritten = tail := by
    rw [h1, List.append_assoc, List.drop_left' (octets_length _ _)] at ht
    exact List.append_cancel_right ht
  have t2 : x'.standard_variable_records.flatMap variableRecordWritten = tail := by
    rw [h1', List.append_assoc, List.drop_left' (octets_length _ _)] at ht'
    exact List.append_cancel_right ht'
  refine ((C48_counted_parts_unique (octets 2 x.standard_variable_records.length ++
    x.standard_variable_records.flatMap variableRecordWritten ++ [])).2
    x x' [] [] ⟨rfl, h2, h3⟩ ⟨?_, h2', h3'⟩).1
  rw [t1, t2, ← h2, ← h2', hn]

/-- Nothing but the tables and the counted part matters: two messages of one of the five kinds with a counted part,
each decoded successfully, whose octets mean the same in every row of the tables and that have the same octets
between the fixed part and what is left unread, give the same PDU. -/
theorem C48_decode_unique_variable (k : PduKind) (hk : k.variableDecoder = true)
    (prof₁ prof₂ : Profile) (b₁ b₂ rest₁ rest₂ counted : Bytes) (p₁ p₂ : Pdu k.Body)
    (h₁ : k.decode prof₁ b₁ = .ok (.ok p₁, rest₁)) (h₂ : k.decode prof₂ b₂ = .ok (.ok p₂, rest₂))
    (hh : ∀ s ∈ PduHeader.layout, s.read (s.found b₁) = s.read (s.found b₂))
    (hb : ∀ s ∈ k.layoutTable, s.read (s.found b₁) = s.read (s.found b₂))
    (hc₁ : b₁.drop k.ieeeOctets = counted ++ rest₁) (hc₂ : b₂.drop k.ieeeOctets = counted ++ rest₂) :
    p₁ = p₂ := by
  obtain ⟨r1, r1'⟩ := C48_decode k prof₁ b₁ rest₁ p₁ h₁
  obtain ⟨r2, r2'⟩ := C48_decode k prof₂ b₂ rest₂ p₂ h₂
  have e1 : p₁.header = p₂.header := PduHeader.agree fun s hs => by
    rw [← PduHeader.layout_eq] at hs
    rw [(r1 s hs).2, (r2 s hs).2, hh s hs]
  have hag : Agree k.slots p₁.body p₂.body := fun s hs => by
    have hm : s.shift 12 ∈ k.layoutTable := by
      rw [k.layout_eq]
      exact List.mem_map_of_mem hs
    show (s.shift 12).value _ = (s.shift 12).value _
    rw [(r1' _ hm).2, (r2' _ hm).2, hb _ hm]
  have e2 : p₁.body = p₂.body := by
    clear r1 r2 r1' r2' hh hb e1
    cases k
    case TransferOwnership =>
      refine TransferOwnershipPdu.agree_rest hag ?_
      exact SetsFound.same ((C48_record_sets_decode prof₁ b₁ rest₁).1 p₁ h₁)
        ((C48_record_sets_decode prof₂ b₂ rest₂).1 p₂ h₂) (TransferOwnershipPdu.agree_count hag)
        (by rw [List.drop_drop]; exact hc₁) (by rw [List.drop_drop]; exact hc₂)
    case SetRecordReliable =>
      refine SetRecordReliablePdu.agree_rest hag ?_
      exact SetsFound.same ((C48_record_sets_decode prof₁ b₁ rest₁).2 p₁ h₁)
        ((C48_record_sets_decode prof₂ b₂ rest₂).2 p₂ h₂) (SetRecordReliablePdu.agree_count hag)
        (by rw [List.drop_drop]; exact hc₁) (by rw [List.drop_drop]; exact hc₂)
    case InformationOperationsReport =>
      refine InformationOperationsReportPdu.agree_rest hag ?_
      exact RecordsFound.same ((C48_variable_records_decode prof₁ b₁ rest₁).1 p₁ h₁)
        ((C48_variable_records_decode prof₂ b₂ rest₂).1 p₂ h₂) (InformationOperationsReportPdu.agree_count hag)
        (by rw [List.drop_drop]; exact hc₁) (by rw [List.drop_drop]; exact hc₂)
    case InformationOperationsAction =>
      refine InformationOperationsActionPdu.agree_rest hag ?_
      exact RecordsFound.same ((C48_variable_records_decode prof₁ b₁ rest₁).2 p₁ h₁)
        ((C48_variable_records_decode prof₂ b₂ rest₂).2 p₂ h₂) (InformationOperationsActionPdu.agree_count hag)
        (by rw [List.drop_drop]; exact hc₁) (by rw [List.drop_drop]; exact hc₂)
    case Transmitter =>
      have hc₁ : b₁.drop 104 = counted ++ rest₁ := hc₁
      have hc₂ : b₂.drop 104 = counted ++ rest₂ := hc₂
      obtain ⟨a1, a2, a3, a4, a5⟩ := C48_transmitter_decode prof₁ b₁ rest₁ p₁ h₁
      obtain ⟨c1, c2, c3, c4, c5⟩ := C48_transmitter_decode prof₂ b₂ rest₂ p₂ h₂
      generalize (b₁.getD 100 0).toNat = n at *
      generalize (b₂.getD 100 0).toNat = m at *
      have l1 : counted.length = n := by
        have := congrArg List.length hc₁
        rw [List.length_append, a5, List.length_drop, List.length_drop] at this
        omega
      have l2 : counted.length = m := by
        have := congrArg List.length hc₂
        rw [List.length_append, c5, List.length_drop, List.length_drop] at this
        omega
      refine TransmitterPdu.agree_rest hag ?_ (a2.trans c2.symm) (a3.trans c3.symm)
      rw [a1, c1, hc₁, hc₂, ← l1, ← l2, List.take_left' rfl, List.take_left' rfl]
    all_goals exact absurd hk (by decide)
  obtain ⟨_, _⟩ := p₁
  obtain ⟨_, _⟩ := p₂
  cases e1
  cases e2
  rfl

/-- Two messages of this sort, which differ in what follows them. -/
example : C48_setRecord ≠ C48_setRecord ++ [1] ∧
    (match decodeAs SetRecordReliablePdu ⟨true⟩ C48_setRecord, decodeAs SetRecordReliablePdu ⟨false⟩ (C48_setRecord ++ [1]) with
    | .ok (.ok p, r), .ok (.ok q, s) =>
      decide (p.body.record_sets = q.body.record_sets ∧ C48_setRecord.drop 40 = (C48_setRecord.drop 40).take 18 ++ r ∧
        (C48_setRecord ++ [1]).drop 40 = (C48_setRecord.drop 40).take 18 ++ s)
    | _, _ => false) = true := by decide +kernel

/-! ### C12: exactly the rightly counted records come back -/

theorem RecordsFound.wellCounted {f rest : Bytes} {x : StandardVariableSpecification} (h : RecordsFound f x rest) :
    WellCounted x := ⟨h.2.1, fun e he => (h.2.2 e he).symm⟩

theorem SetsFound.wellCounted {f rest : Bytes} {x : RecordSpecification} (h : SetsFound true f x rest) :
    SetsWellCounted x := ⟨h.2.1, fun e he => by
  obtain ⟨h1, h2⟩ := h.2.2 e he
  have h2 := h2 rfl
  exact ⟨h2, by rw [h1, Nat.mod_eq_of_lt h2]⟩⟩

/-- The records of an information operations PDU come back from its own octets, whatever follows them and in any
build, exactly when they are counted right. -/
theorem C12_variable_records_iff (prof prof' : Profile) (buf w rest : Bytes) :
    (∀ p q : Pdu InformationOperationsReportPdu, p.serialize prof buf = .ok ((q, .ok ()), buf ++ w) →
      ((∃ d, decodeAs InformationOperationsReportPdu prof' (w ++ rest) = .ok (.ok d, rest) ∧
        d.body.io_records = p.body.io_records) ↔ WellCounted p.body.io_records)) ∧
    (∀ p q : Pdu InformationOperationsActionPdu, p.serialize prof buf = .ok ((q, .ok ()), buf ++ w) →
      ((∃ d, decodeAs InformationOperationsActionPdu prof' (w ++ rest) = .ok (.ok d, rest) ∧
        d.body.io_records = p.body.io_records) ↔ WellCounted p.body.io_records)) := by
  constructor
  · intro p q h
    constructor
    · rintro ⟨d, hd, he⟩
      rw [← he]
      exact ((C48_variable_records_decode prof' _ _).1 d hd).wellCounted
    · intro hc
      have hx := C12_information_operations_report p q prof buf w h prof' rest
      dsimp only at hx
      have hr := StandardVariableSpecification.reads p.body.io_records hc prof' rest
      rw [hr] at hx
      exact ⟨_, hx, rfl⟩
  · intro p q h
    constructor
    · rintro ⟨d, hd, he⟩
      rw [← he]
      exact ((C48_variable_records_decode prof' _ _).2 d hd).wellCounted
    · intro hc
      have hx := C12_information_operations_action p q prof buf w h prof' rest
      dsimp only at hx
      have hr := StandardVariableSpecification.reads p.body.io_records hc prof' rest
      rw [hr] at hx
      exact ⟨_, hx, rfl⟩

/-- The record sets of a transfer ownership or set record PDU come back from its own octets, whatever follows them,
in a receiver built with overflow checks exactly when they are counted right; without them, only if their number
is right and each has as many octets as the low 16 bits of length × count say. -/
theorem C12_record_sets_iff (prof : Profile) (buf w rest : Bytes) :
    (∀ p q : Pdu TransferOwnershipPdu, p.serialize prof buf = .ok ((q, .ok ()), buf ++ w) →
      ((∃ d, decodeAs TransferOwnershipPdu ⟨true⟩ (w ++ rest) = .ok (.ok d, rest) ∧
        d.body.record_information = p.body.record_information) ↔ SetsWellCounted p.body.record_information) ∧
      ∀ d, decodeAs TransferOwnershipPdu ⟨false⟩ (w ++ rest) = .ok (.ok d, rest) →
        d.body.record_information = p.body.record_information →
        p.body.record_information.number_of_record_sets.toNat = p.body.record_information.record_sets.length ∧
        ∀ e ∈ p.body.record_information.record_sets,
          e.record_values.length = e.record_length.toNat * e.record_count.toNat % 65536) ∧
    (∀ p q : Pdu SetRecordReliablePdu, p.serialize prof buf = .ok ((q, .ok ()), buf ++ w) →
      ((∃ d, decodeAs SetRecordReliablePdu ⟨true⟩ (w ++ rest) = .ok (.ok d, rest) ∧
        d.body.record_sets = p.body.record_sets) ↔ SetsWellCounted p.body.record_sets) ∧
      ∀ d, decodeAs SetRecordReliablePdu ⟨false⟩ (w ++ rest) = .ok (.ok d, rest) →
        d.body.record_sets = p.body.record_sets →
        p.body.record_sets.number_of_record_sets.toNat = p.body.record_sets.record_sets.length ∧
        ∀ e ∈ p.body.record_sets.record_sets,
          e.record_values.length = e.record_length.toNat * e.record_count.toNat % 65536) := by
  constructor
  · intro p q h
    refine ⟨⟨?_, fun hc => ?_⟩, ?_⟩
    · rintro ⟨d, hd, he⟩
      rw [← he]
      exact ((C48_record_sets_decode ⟨true⟩ _ _).1 d hd).wellCounted
    · have hx := C12_transfer_ownership p q prof buf w h ⟨true⟩ rest
      dsimp only at hx
      rw [hc.sent.2.1, RecordSpecification.reads p.body.record_information hc.sent.2.2 ⟨true⟩ rest] at hx
      exact ⟨_, hx, rfl⟩
    · intro d hd he
      rw [← he]
      obtain ⟨_, h1, h2⟩ := (C48_record_sets_decode ⟨false⟩ _ _).1 d hd
      exact ⟨h1, fun e he => (h2 e he).1⟩
  · intro p q h
    refine ⟨⟨?_, fun hc => ?_⟩, ?_⟩
    · rintro ⟨d, hd, he⟩
      rw [← he]
      exact ((C48_record_sets_decode ⟨true⟩ _ _).2 d hd).wellCounted
    · have hx := C12_set_record p q prof buf w h ⟨true⟩ rest
      dsimp only at hx
      rw [hc.sent.2.1, RecordSpecification.reads p.body.record_sets hc.sent.2.2 ⟨true⟩ rest] at hx
      exact ⟨_, hx, rfl⟩
    · intro d hd he
      rw [← he]
      obtain ⟨_, h1, h2⟩ := (C48_record_sets_decode ⟨false⟩ _ _).2 d hd
      exact ⟨h1, fun e he => (h2 e he).1⟩

/-- A set counted wrong that is nevertheless decoded: three values sent, a length of one. -/
example : ¬ SetsWellCounted ⟨1, [⟨5, 9, 1, 1, [1, 2, 3]⟩]⟩ ∧
    (match decodeAs SetRecordReliablePdu ⟨true⟩ (C48_setRecord.take 48 ++ [0, 1, 0, 1] ++ [1, 2, 3]) with
    | .ok (.ok p, rest) => decide (rest = [2, 3] ∧ p.body.record_sets = ⟨1, [⟨5, 9, 1, 1, [1]⟩]⟩)
    | _ => false) = true := by
  refine ⟨?_, by decide +kernel⟩
  intro h
  have := (h.2 _ List.mem_cons_self).2
  exact absurd this (by decide)

/-- The sets of the sample message, found in its octets. -/
example : SetsFound true (C48_setRecord.drop 36) ⟨1, [⟨5, 9, 3, 2, [1, 2, 3, 4, 5, 6]⟩]⟩ [77] := by
  refine ⟨by decide +kernel, by decide, ?_⟩
  decide

end Dis
