import Verif.Properties.Damage
/-
C65: what a program puts into the fields of a PDU is what a receiver finds in them (book/src/guides/creating-a-pdu.md).
-/
set_option maxRecDepth 8000
namespace Dis

/-- Any kind, any values: if the octets of a serialized PDU are decoded at all, every field of the tables holds at the
receiver what the table says of the number sent - the number in the sender's field, or zero for the fields of which nothing
but zeros is sent - and the header is the one sent. -/
theorem C65_field_arrives (k : PduKind) (p q d : Pdu k.Body) (prof prof' : Profile) (w rest left : Bytes)
    (h : p.serialize prof [] = .ok ((q, .ok ()), w)) (hd : k.decode prof' (w ++ rest) = .ok (.ok d, left)) :
    d.header = q.header ∧
    ∀ s ∈ k.layoutTable, s.value d.body = s.read (if s.alwaysZero then 0 else s.value q.body) := by
  obtain ⟨v, hv, _, v2⟩ := C48_encode k p q prof [] w h
  rw [List.nil_append] at hv
  subst hv
  obtain ⟨_, r2⟩ := C48_decode k prof' (w ++ rest) left d hd
  refine ⟨?_, fun s hs => ?_⟩
  · have h1 := (C04_declared_length_all_kinds k p q prof [] w h).1
    rw [List.nil_append] at h1
    have h12 : 12 ≤ (w ++ rest).length := by
      rw [h1]; simp only [List.length_append, PduHeader.wire_length]; omega
    obtain ⟨x, e1, _, e3⟩ := Pdu.deserialize_eq (B := k.Body) prof' (w ++ rest) h12
    have e2 : PduHeader.deserialize prof' (w ++ rest) = .ok (q.header, wire (sent q.body) ++ rest) := by
      rw [h1, List.append_assoc]
      exact q.header.reads prof' _
    rw [e2] at e1
    obtain ⟨rfl, _⟩ := Prod.mk.inj (Except.ok.inj e1)
    rw [show k.decode prof' (w ++ rest) = _ from e3] at hd
    split at hd
    · cases hd
    · split at hd
      · cases hd
      · cases hd
        rfl
  · obtain ⟨a1, a2⟩ := v2 s hs
    rw [(r2 s hs).2]
    have : s.found (w ++ rest) = s.found w := by
      unfold Slot.found
      unfold Slot.stop at a1
      rw [List.drop_append_of_le_length (by omega), List.take_append_of_le_length (by rw [List.length_drop]; omega)]
    rw [this, a2]
    rfl

/-- A field whose every value is read as itself. -/
def Slot.Faithful {B : Type} (s : Slot B) : Prop := ∀ x, s.read (s.value x) = s.value x

theorem Slot.faithful_enum {B : Type} {e : EnumSpec} (o n : Nat) (f : B → EnumVal e) : (Slot.enum o n f).Faithful :=
  fun x => if_pos (f x).mem

theorem Slot.faithful_zeroed {B : Type} {s : Slot B} (h : s.Faithful) : s.zeroed.Faithful := h

theorem PduKind.faithful (k : PduKind) (hk : k ≠ .StopFreeze ∧ k ≠ .StopFreezeReliable ∧ k ≠ .ArealObjectState) :
    ∀ s ∈ k.layoutTable, s.Faithful := by
  obtain ⟨h1, h2, h3⟩ := hk
  cases k
  case StopFreeze => exact absurd rfl h1
  case StopFreezeReliable => exact absurd rfl h2
  case ArealObjectState => exact absurd rfl h3
  all_goals
    (repeat refine List.forall_mem_cons.mpr ⟨by
      first
      | exact Slot.faithful_enum _ _ _
      | exact Slot.faithful_zeroed (Slot.faithful_enum _ _ _)
      | exact fun _ => rfl, ?_⟩)
    exact fun _ h => nomatch h

/-- Every kind but the three with flag sets: the receiver finds in every field exactly what was sent. -/
theorem C65_exactly (k : PduKind) (hk : k ≠ .StopFreeze ∧ k ≠ .StopFreezeReliable ∧ k ≠ .ArealObjectState)
    (p q d : Pdu k.Body) (prof prof' : Profile) (w rest left : Bytes)
    (h : p.serialize prof [] = .ok ((q, .ok ()), w)) (hd : k.decode prof' (w ++ rest) = .ok (.ok d, left)) :
    ∀ s ∈ k.layoutTable, s.alwaysZero = false → s.value d.body = s.value q.body := by
  intro s hs hz
  rw [(C65_field_arrives k p q d prof prof' w rest left h hd).2 s hs, hz]
  exact k.faithful hk s hs q.body

/-- The three kinds with flag sets (the named ones at the given bits): likewise, unless a field - it is the flag set - has a bit
set that has no name; then the receiver finds it empty. -/
theorem C65_flags (k : PduKind) (named : List Nat) (hk : (k = .StopFreeze ∧ named = [0, 1, 2]) ∨
      (k = .StopFreezeReliable ∧ named = [0, 1, 2]) ∨ (k = .ArealObjectState ∧ named = [0, 8, 10, 11, 12, 13, 14]))
    (p q d : Pdu k.Body) (prof prof' : Profile) (w rest left : Bytes)
    (h : p.serialize prof [] = .ok ((q, .ok ()), w)) (hd : k.decode prof' (w ++ rest) = .ok (.ok d, left)) :
    ∀ s ∈ k.layoutTable, s.value d.body = s.value q.body ∨
      s.value d.body = 0 ∧ ∃ i, (s.value q.body).testBit i = true ∧ i ∉ named := by
  intro s hs
  have hz : ∀ s ∈ k.layoutTable, s.alwaysZero = false := by
    rcases hk with ⟨rfl, _⟩ | ⟨rfl, _⟩ | ⟨rfl, _⟩
    all_goals
      (repeat refine List.forall_mem_cons.mpr ⟨rfl, ?_⟩)
      exact fun _ h => nomatch h
  have hf : ∀ s ∈ k.layoutTable, s.Faithful ∨ ∃ width, ∀ n,
      s.read n = if ∀ i < 8 * width, n.testBit i = true → i ∈ named then n else 0 := by
    rcases hk with ⟨rfl, rfl⟩ | ⟨rfl, rfl⟩ | ⟨rfl, rfl⟩
    all_goals
      (repeat refine List.forall_mem_cons.mpr ⟨by
        first
        | exact .inl (Slot.faithful_enum _ _ _)
        | exact .inl (fun _ => rfl)
        | exact .inr ⟨1, fun _ => rfl⟩
        | exact .inr ⟨2, fun _ => rfl⟩, ?_⟩)
      exact fun _ h => nomatch h
  rw [(C65_field_arrives k p q d prof prof' w rest left h hd).2 s hs, hz s hs]
  rcases hf s hs with hf | ⟨n, hf⟩
  · exact .inl (hf q.body)
  · simp only [Bool.false_eq_true, if_false]
    rw [hf]
    by_cases hi : ∀ i < 8 * n, (s.value q.body).testBit i = true → i ∈ named
    · exact .inl (if_pos hi)
    · refine .inr ⟨if_neg hi, ?_⟩
      refine Classical.byContradiction fun hn => hi fun i _ ht => ?_
      exact Classical.byContradiction fun hm => hn ⟨i, ht, hm⟩

/-- Two PDUs of a kind, for example one before and after an edit: fields in which they do not differ do not differ at the
receivers either. -/
theorem C65_edit_confined (k : PduKind) (p p' q q' d d' : Pdu k.Body) (prof prof' prof1 prof1' : Profile)
    (w w' rest rest' left left' : Bytes) (h : p.serialize prof [] = .ok ((q, .ok ()), w))
    (h' : p'.serialize prof' [] = .ok ((q', .ok ()), w'))
    (hd : k.decode prof1 (w ++ rest) = .ok (.ok d, left)) (hd' : k.decode prof1' (w' ++ rest') = .ok (.ok d', left')) :
    ∀ s ∈ k.layoutTable, s.value q'.body = s.value q.body → s.value d'.body = s.value d.body := by
  intro s hs e
  rw [(C65_field_arrives k p q d prof prof1 w rest left h hd).2 s hs,
    (C65_field_arrives k p' q' d' prof' prof1' w' rest' left' h' hd').2 s hs, e]

/-- The book says that all 72 PDUs of the standard are implemented.  Of the type codes 1 to 72, six have no PDU type:
time-space-position information, appearance, articulated parts, live entity fire and detonation (46 to 50), and record-R (63);
every other one has exactly one, and no other code has any. -/
theorem C65_types (n : Nat) :
    ((∃ k : PduKind, k.typeCode = n) ↔ 1 ≤ n ∧ n ≤ 72 ∧ n ∉ [46, 47, 48, 49, 50, 63]) ∧
    (∀ k k' : PduKind, k.typeCode = n → k'.typeCode = n → k = k') := by
  refine ⟨⟨?_, ?_⟩, fun k k' h h' => PduKind.typeCode_inj (h.trans h'.symm)⟩
  · rintro ⟨k, rfl⟩
    cases k <;> decide
  · intro h
    have : ∀ n < 73, 1 ≤ n ∧ n ≤ 72 ∧ n ∉ [46, 47, 48, 49, 50, 63] → n ∈ PduKind.all.map PduKind.typeCode := by
      decide +kernel
    obtain ⟨k, _, hk⟩ := List.mem_map.mp (this n (by omega) h)
    exact ⟨k, hk⟩

/-- Created with `new`, then any fields of the body assigned: for a kind of fixed layout that is all there is to do.  The
header `new` made is right; serializing succeeds and changes nothing, and the receiver gets the PDU as the sender has it. -/
theorem C65_new_edited (k : PduKind) (hk : k.fixedLayout = true) (h1 : k ≠ .StopFreeze) (h2 : k ≠ .StopFreezeReliable)
    (now : UInt32) (b : k.Body) (prof : Profile) (buf : Bytes) :
    let p : Pdu k.Body := { (Pdu.new now : Pdu k.Body) with body := b }
    ∃ w, p.serialize prof buf = .ok ((p, .ok ()), buf ++ w) ∧ w.length = k.ieeeOctets ∧
      ∀ prof' rest, k.decode prof' (w ++ rest) = .ok (.ok p, rest) := by
  intro p
  obtain ⟨q, w, hs, hl, hb, hd⟩ := C11_roundtrip k hk h1 h2 p prof buf
  obtain ⟨e, _, _⟩ := Pdu.serialize_ok hs
  have hp : p.after = p := by
    have hp : PduBody.prep p.body = p.body := (k.layout hk p.body).2.2.2
    have hn := Pdu.new_eq (B := k.Body) (now := now) (by rw [k.default_len]; exact k.ieeeOctets_lt)
    unfold Pdu.after
    rw [hp, k.layout_len hk]
    show (⟨_, b⟩ : Pdu k.Body) = ⟨(Pdu.new now : Pdu k.Body).header, b⟩
    rw [show p.header = (Pdu.new now : Pdu k.Body).header from rfl, hn, k.default_len]
  have : q = p := e.trans hp
  subst this
  exact ⟨w, hs, hl, hd⟩

/-- The book's acknowledge PDU, with any numbers. -/
theorem C65_book (now request : UInt32) (site application entity : UInt16) (prof prof' : Profile) :
    let fresh : Pdu AcknowledgePdu := Pdu.new now
    let p : Pdu AcknowledgePdu := { fresh with body := { fresh.body with
      request_id := request, originating_entity_id := ⟨⟨site, application⟩, entity⟩ } }
    ∃ w : Bytes, p.serialize prof [] = .ok ((p, .ok ()), w) ∧ w.length = 32 ∧
      decodeAs AcknowledgePdu prof' w = .ok (.ok p, []) ∧
      (w.drop 12).take 6 = octets 2 site.toNat ++ octets 2 application.toNat ++ octets 2 entity.toNat ∧
      (w.drop 28).take 4 = octets 4 request.toNat := by
  intro fresh p
  obtain ⟨w, hs, hl, hd⟩ := C65_new_edited .Acknowledge rfl (by decide) (by decide) now p.body prof []
  obtain ⟨_, _, hw⟩ := Pdu.serialize_ok hs
  have hw' : w = wire p.header ++ ((octets 2 site.toNat ++ octets 2 application.toNat ++ octets 2 entity.toNat) ++
      ((wire p.body.receiving_entity_id ++ wire p.body.acknowledge_flag ++ wire p.body.response_flag) ++
        octets 4 request.toNat)) := by
    rw [List.nil_append] at hw
    rw [hw]
    show wire p.header ++ (((octets 2 site.toNat) ▹ (octets 2 application.toNat)) ▹ (octets 2 entity.toNat)) ++ _ = _
    simp only [List.append_assoc]
    rfl
  have l12 : (wire p.header).length = 12 := PduHeader.wire_length _
  have l6 : (octets 2 site.toNat ++ octets 2 application.toNat ++ octets 2 entity.toNat).length = 6 := by
    simp only [List.length_append, octets_length]
  have l10 : (wire p.body.receiving_entity_id ++ wire p.body.acknowledge_flag ++ wire p.body.response_flag).length = 10 := by
    simp only [List.length_append]
    rfl
  refine ⟨w, hs, hl, ?_, ?_, ?_⟩
  · have := hd prof' []
    rwa [List.append_nil] at this
  · rw [hw', ← l12, List.drop_left, ← l6, List.take_left]
  · have l28 : (wire p.header ++ ((octets 2 site.toNat ++ octets 2 application.toNat ++ octets 2 entity.toNat) ++
        (wire p.body.receiving_entity_id ++ wire p.body.acknowledge_flag ++ wire p.body.response_flag))).length = 28 := by
      rw [List.length_append, List.length_append, l12, l6, l10]
    have hw2 := hw'
    rw [← List.append_assoc (as := octets 2 site.toNat ++ octets 2 application.toNat ++ octets 2 entity.toNat),
      ← List.append_assoc (as := wire p.header)] at hw2
    rw [hw2, ← l28, List.drop_left]
    exact List.take_of_length_le (by rw [octets_length]; omega)

example : PduKind.Acknowledge.fixedLayout = true := rfl

/-- Instances: the sample signal PDU, whose data do not arrive but whose every field does; and the same with another
encoding scheme. -/
example := C65_field_arrives .Signal sampleSignal _ _ ⟨true⟩ ⟨true⟩ sampleOctets [] _ sampleSignal_serialize_nil
  (by rw [List.append_nil]; exact sampleSignal_decode)
example := C65_exactly .Signal (by decide) sampleSignal _ _ ⟨true⟩ ⟨true⟩ sampleOctets [] _ sampleSignal_serialize_nil
  (by rw [List.append_nil]; exact sampleSignal_decode)


/-- A fire PDU before and after its range is set to 1.0. -/
example : ∃ (p p' : Pdu FirePdu) (w w' : Bytes), p.serialize ⟨true⟩ [] = .ok ((p, .ok ()), w) ∧
    p'.serialize ⟨true⟩ [] = .ok ((p', .ok ()), w') ∧ decodeAs FirePdu ⟨true⟩ (w ++ []) = .ok (.ok p, []) ∧
    decodeAs FirePdu ⟨true⟩ (w' ++ [9]) = .ok (.ok p', [9]) ∧ p.body ≠ p'.body := by
  obtain ⟨w, hs, _, hd⟩ := C65_new_edited .Fire rfl (by decide) (by decide) 7 (Pdu.new 7 : Pdu FirePdu).body ⟨true⟩ []
  obtain ⟨w', hs', _, hd'⟩ := C65_new_edited .Fire rfl (by decide) (by decide) 7 C48_fire.body ⟨true⟩ []
  exact ⟨_, _, _, _, hs, hs', hd ⟨true⟩ [], hd' ⟨true⟩ [9], by decide +kernel⟩

/-- A stop/freeze PDU with all eight flags set: the receiver finds none. -/
example : (match (⟨exampleHeader, { (PduBody.default : StopFreezePdu) with frozen_behavior := ⟨255⟩ }⟩ : Pdu StopFreezePdu).serialize
      ⟨true⟩ [] with
    | .ok ((_, .ok ()), w) => (match decodeAs StopFreezePdu ⟨true⟩ w with
      | .ok (.ok d, r) => decide (d.body.frozen_behavior.bits = 0 ∧ r = [])
      | _ => false)
    | _ => false) = true := by
  decide +kernel

/-- A stop/freeze message with its first two flags set. -/
example : ∃ (p q d : Pdu StopFreezePdu) (w : Bytes), p.body.frozen_behavior = ⟨3⟩ ∧ p.serialize ⟨true⟩ [] = .ok ((q, .ok ()), w) ∧
    decodeAs StopFreezePdu ⟨false⟩ (w ++ [9]) = .ok (.ok d, [9]) := by
  obtain ⟨q, w, hs, hl, hb, f, _, _, hd⟩ := C11_roundtrip_stop_freeze ⟨exampleHeader, { (PduBody.default : StopFreezePdu) with
    frozen_behavior := ⟨3⟩ }⟩ ⟨true⟩ []
  exact ⟨_, _, _, _, rfl, hs, hd ⟨false⟩ [9]⟩
example : (∃ k : PduKind, k.typeCode = 45) ∧ ¬ ∃ k : PduKind, k.typeCode = 46 :=
  ⟨(C65_types 45).1.mpr (by decide), fun h => absurd ((C65_types 46).1.mp h) (by decide)⟩

end Dis
