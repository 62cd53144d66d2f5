import Verif.Properties.DecodeVariable
import Verif.Properties.Needs
import Verif.Properties.Message
/-
C60: damage to a message is confined to the fields whose octets it hits.
-/
namespace Dis

/-- The same octets, except perhaps at the positions `hurt`. -/
def Damaged (hurt : Nat → Prop) (b b' : Bytes) : Prop :=
  b'.length = b.length ∧ ∀ j, ¬ hurt j → b'[j]? = b[j]?

/-- None of the octets of the slot is hurt. -/
def Slot.Spared {B : Type} (hurt : Nat → Prop) (s : Slot B) : Prop :=
  ∀ j, s.offset ≤ j → j < s.stop → ¬ hurt j

theorem Damaged.part {hurt : Nat → Prop} {b b' : Bytes} (h : Damaged hurt b b') (o n : Nat)
    (hs : ∀ j, o ≤ j → j < o + n → ¬ hurt j) : (b'.drop o).take n = (b.drop o).take n := by
  refine List.ext_getElem? fun i => ?_
  by_cases hi : i < n
  · rw [List.getElem?_take_of_lt hi, List.getElem?_take_of_lt hi, List.getElem?_drop, List.getElem?_drop]
    exact h.2 _ (hs _ (Nat.le_add_right ..) (by omega))
  · rw [List.getElem?_eq_none (by rw [List.length_take]; omega),
      List.getElem?_eq_none (by rw [List.length_take]; omega)]

theorem Damaged.tail {hurt : Nat → Prop} {b b' : Bytes} (h : Damaged hurt b b') (o : Nat)
    (hs : ∀ j, o ≤ j → ¬ hurt j) : b'.drop o = b.drop o := by
  refine List.ext_getElem? fun i => ?_
  rw [List.getElem?_drop, List.getElem?_drop]
  exact h.2 _ (hs _ (Nat.le_add_right ..))

theorem Damaged.at {hurt : Nat → Prop} {b b' : Bytes} (h : Damaged hurt b b') (o : Nat) (hs : ¬ hurt o) :
    b'.getD o 0 = b.getD o 0 := by
  rw [List.getD_eq_getElem?_getD, List.getD_eq_getElem?_getD, h.2 o hs]

theorem Damaged.found {B : Type} {hurt : Nat → Prop} {b b' : Bytes} (h : Damaged hurt b b') (s : Slot B)
    (hs : s.Spared hurt) : s.found b' = s.found b := by
  unfold Slot.found
  rw [h.part s.offset s.width fun j h1 h2 => hs j h1 h2]

theorem Damaged.spared {k : PduKind} {hurt : Nat → Prop} {b b' : Bytes} (h : Damaged hurt b b')
    {prof prof' : Profile} {p p' : Pdu k.Body} {rest rest' : Bytes}
    (hd : k.decode prof b = .ok (.ok p, rest)) (hd' : k.decode prof' b' = .ok (.ok p', rest')) :
    (∀ s ∈ PduHeader.layout, s.Spared hurt → s.value p'.header = s.value p.header) ∧
      ∀ s ∈ k.layoutTable, s.Spared hurt → s.value p'.body = s.value p.body := by
  obtain ⟨r1, r2⟩ := C48_decode k prof b rest p hd
  obtain ⟨r1', r2'⟩ := C48_decode k prof' b' rest' p' hd'
  exact ⟨fun s hs h1 => by rw [(r1 s hs).2, (r1' s hs).2, h.found s h1],
    fun s hs h1 => by rw [(r2 s hs).2, (r2' s hs).2, h.found s h1]⟩

/-- Any octets but the type hurt, in a message of a kind whose decoder reads a fixed number of octets: it is
decoded still; every field none of whose octets is hurt keeps its value, and as many octets as before are left,
which are hurt where they were hurt. -/
theorem C60_contained (k : PduKind) (hk : k.variableDecoder = false) (prof prof' : Profile)
    (hurt : Nat → Prop) (ht : ¬ hurt 2) (b b' rest : Bytes) (h : Damaged hurt b b') (p : Pdu k.Body)
    (hd : k.decode prof b = .ok (.ok p, rest)) :
    ∃ p' n, rest = b.drop n ∧ k.decode prof' b' = .ok (.ok p', b'.drop n) ∧
      (∀ s ∈ PduHeader.layout, s.Spared hurt → s.value p'.header = s.value p.header) ∧
      ∀ s ∈ k.layoutTable, s.Spared hurt → s.value p'.body = s.value p.body := by
  obtain ⟨hh, hty, _⟩ := C09_ok_only_own_type k prof b p rest hd
  have hh' : 12 ≤ b'.length := by rw [h.1]; exact hh
  have hty' : (b'.getD 2 0).toNat = k.typeCode := by rw [h.at 2 ht]; exact hty
  have key : ∃ p' n, rest = b.drop n ∧ k.decode prof' b' = .ok (.ok p', b'.drop n) := by
    by_cases he : k = .EntityState
    · subst he
      have c := C14_entity_state prof b hh hty
      have c' := C14_entity_state prof' b' hh' hty'
      by_cases hs : b.length < 133
      · have hd : decodeAs EntityStatePdu prof b = .ok (.ok p, rest) := hd
        rw [c.1 hs] at hd; cases hd
      · obtain ⟨x, hx⟩ := c.2 (by omega)
        have hd : decodeAs EntityStatePdu prof b = .ok (.ok p, rest) := hd
        rw [hd] at hx
        simp only [Except.ok.injEq, Prod.mk.injEq] at hx
        obtain ⟨p', hp'⟩ := c'.2 (by rw [h.1]; omega)
        exact ⟨p', 133, hx.2, hp'⟩
    · have c := C14_panics_iff_short k hk he prof b hh hty
      have c' := C14_panics_iff_short k hk he prof' b' hh' hty'
      by_cases hs : b.length < k.ieeeOctets
      · rw [c.1 hs] at hd; cases hd
      · obtain ⟨x, hx⟩ := c.2 (by omega)
        rw [hd] at hx
        simp only [Except.ok.injEq, Prod.mk.injEq] at hx
        obtain ⟨p', hp'⟩ := c'.2 (by rw [h.1]; omega)
        exact ⟨p', _, hx.2, hp'⟩
  obtain ⟨p', n, h1, h2⟩ := key
  exact ⟨p', n, h1, h2, h.spared hd h2⟩

/-- The type octet hurt: the message is refused, with an error that names both types, whatever else is hurt; it
is never taken for a message of another kind. -/
theorem C60_type (k : PduKind) (prof prof' : Profile) (b b' rest : Bytes) (hl : b'.length = b.length)
    (p : Pdu k.Body) (hd : k.decode prof b = .ok (.ok p, rest)) (hne : b'.getD 2 0 ≠ b.getD 2 0) :
    k.decode prof' b' = .ok (.error (.InvalidHeader ("Expected PDU type " ++ pduTypeName k.typeCode ++ ", got " ++
      pduTypeName (b'.getD 2 0).toNat)), b'.drop 12) := by
  obtain ⟨hh, hty, _⟩ := C09_ok_only_own_type k prof b p rest hd
  refine C09_foreign_type_refused k prof' b' (by rw [hl]; exact hh) fun e => hne ?_
  exact UInt8.toNat_inj.mp (e.trans hty.symm)

/-! ### The kinds with a counted part -/

/-- The transmitter PDU, neither the type nor the length of the modulation parameters hurt: decoded still; of the
parameters just the hurt octets differ. -/
theorem C60_transmitter (prof prof' : Profile) (hurt : Nat → Prop) (ht : ¬ hurt 2) (hn : ¬ hurt 100)
    (b b' rest : Bytes) (h : Damaged hurt b b') (p : Pdu TransmitterPdu)
    (hd : decodeAs TransmitterPdu prof b = .ok (.ok p, rest)) :
    ∃ p' n, rest = b.drop n ∧ decodeAs TransmitterPdu prof' b' = .ok (.ok p', b'.drop n) ∧
      (∀ s ∈ PduHeader.layout, s.Spared hurt → s.value p'.header = s.value p.header) ∧
      (∀ s ∈ PduKind.layoutTable .Transmitter, s.Spared hurt → s.value p'.body = s.value p.body) ∧
      (p.body.modulation_parameters = none ∧ p'.body.modulation_parameters = none ∨
        ∃ m m', p.body.modulation_parameters = some m ∧ p'.body.modulation_parameters = some m' ∧
          Damaged (fun j => hurt (104 + j)) m.record_specific_fields m'.record_specific_fields) := by
  obtain ⟨hh, hty, _⟩ := C09_ok_only_own_type .Transmitter prof b p rest hd
  have hh' : 12 ≤ b'.length := by rw [h.1]; exact hh
  have hty' : (b'.getD 2 0).toNat = 25 := by rw [h.at 2 ht]; exact hty
  obtain ⟨m1, _, _, m4, m5⟩ := C48_transmitter_decode prof b rest p hd
  have hn' := h.at 100 hn
  obtain ⟨p', hp'⟩ := (C14_transmitter prof' b' hh' hty').2 (by rw [hn', h.1]; exact m4)
  obtain ⟨m1', _, _, m4', m5'⟩ := C48_transmitter_decode prof' b' _ p' hp'
  obtain ⟨s1, s2⟩ := h.spared (k := .Transmitter) hd hp'
  refine ⟨p', _, m5, ?_, s1, s2, ?_⟩
  · rw [hp', hn']
  · rw [hn'] at m1'
    by_cases hz : (b.getD 100 0).toNat = 0
    · rw [if_pos hz] at m1 m1'
      exact .inl ⟨m1, m1'⟩
    · rw [if_neg hz] at m1 m1'
      refine .inr ⟨_, _, m1, m1', ?_, fun j hj => ?_⟩
      · simp only [List.length_take, List.length_drop, h.1]
      · show ((b'.drop 104).take _)[j]? = ((b.drop 104).take _)[j]?
        by_cases hjn : j < (b.getD 100 0).toNat
        · rw [List.getElem?_take_of_lt hjn, List.getElem?_take_of_lt hjn, List.getElem?_drop, List.getElem?_drop]
          exact h.2 _ hj
        · rw [List.getElem?_eq_none (by rw [List.length_take]; omega),
            List.getElem?_eq_none (by rw [List.length_take]; omega)]

/-- The two kinds with record sets, only octets before the record sets (from octet 36) hurt: decoded still, the
record sets and what is left unread being the same. -/
theorem C60_record_sets (k : PduKind) (hk : k.hasRecordSets = true) (prof : Profile) (hurt : Nat → Prop)
    (ht : ¬ hurt 2) (hs : ∀ j, 36 ≤ j → ¬ hurt j) (b b' rest : Bytes) (h : Damaged hurt b b')
    (p : Pdu k.Body) (hd : k.decode prof b = .ok (.ok p, rest)) :
    ∃ p', k.decode prof b' = .ok (.ok p', rest) ∧
      (∀ s ∈ PduHeader.layout, s.Spared hurt → s.value p'.header = s.value p.header) ∧
      (∀ s ∈ k.layoutTable, s.Spared hurt → s.value p'.body = s.value p.body) ∧
      ∀ x, SetsFound prof.overflowChecks (b.drop 36) x rest → SetsFound prof.overflowChecks (b'.drop 36) x rest := by
  obtain ⟨hh, hty, _⟩ := C09_ok_only_own_type k prof b p rest hd
  have hh' : 12 ≤ b'.length := by rw [h.1]; exact hh
  have hty' : (b'.getD 2 0).toNat = k.typeCode := by rw [h.at 2 ht]; exact hty
  have c := C14_record_sets k hk prof b hh hty
  have c' := C14_record_sets k hk prof b' hh' hty'
  have e40 : b'.drop 40 = b.drop 40 := h.tail 40 fun j hj => hs j (by omega)
  have e36 : u32At b' 36 = u32At b 36 := by
    unfold u32At u16At
    rw [h.at 36 (hs _ (by omega)), h.at (36 + 1) (hs _ (by omega)), h.at (36 + 2) (hs _ (by omega)),
      h.at (36 + 2 + 1) (hs _ (by omega))]
  rw [e36, e40, h.1] at c'
  by_cases hl : b.length < 40
  · rw [c.1 hl] at hd; cases hd
  · obtain ⟨c1, c2⟩ := c.2 (by omega)
    obtain ⟨c1', c2'⟩ := c'.2 (by omega)
    cases hr : recordSetOctets prof.overflowChecks (u32At b 36) (b.drop 40) with
    | error e => rw [c1 e hr] at hd; cases hd
    | ok n =>
      obtain ⟨x, hx⟩ := c2 n hr
      obtain ⟨p', hp'⟩ := c2' n hr
      have hx' := hx
      rw [hd] at hx'
      simp only [Except.ok.injEq, Prod.mk.injEq] at hx'
      have e : b'.drop (40 + n) = rest := by
        rw [hx'.2, ← List.drop_drop, ← List.drop_drop, e40]
      rw [e] at hp'
      obtain ⟨s1, s2⟩ := h.spared hd hp'
      refine ⟨p', hp', s1, s2, fun x hx => ?_⟩
      rw [h.tail 36 hs]
      exact hx

/-- In other words. -/
theorem C60_transfer_ownership (prof : Profile) (hurt : Nat → Prop) (ht : ¬ hurt 2) (hs : ∀ j, 36 ≤ j → ¬ hurt j)
    (b b' rest : Bytes) (h : Damaged hurt b b') (p : Pdu TransferOwnershipPdu)
    (hd : decodeAs TransferOwnershipPdu prof b = .ok (.ok p, rest)) :
    ∃ p', decodeAs TransferOwnershipPdu prof b' = .ok (.ok p', rest) ∧
      p'.body.record_information = p.body.record_information := by
  obtain ⟨p', hp', _, _, hx⟩ := C60_record_sets .TransferOwnership rfl prof hurt ht hs b b' rest h p hd
  exact ⟨p', hp', ((C48_counted_parts_unique _).1 _ _ _ _ _ _ ((C48_record_sets_decode prof b' rest).1 p' hp')
    (hx _ ((C48_record_sets_decode prof b rest).1 p hd))).1⟩
/-- Likewise. -/
theorem C60_set_record (prof : Profile) (hurt : Nat → Prop) (ht : ¬ hurt 2) (hs : ∀ j, 36 ≤ j → ¬ hurt j)
    (b b' rest : Bytes) (h : Damaged hurt b b') (p : Pdu SetRecordReliablePdu)
    (hd : decodeAs SetRecordReliablePdu prof b = .ok (.ok p, rest)) :
    ∃ p', decodeAs SetRecordReliablePdu prof b' = .ok (.ok p', rest) ∧ p'.body.record_sets = p.body.record_sets := by
  obtain ⟨p', hp', _, _, hx⟩ := C60_record_sets .SetRecordReliable rfl prof hurt ht hs b b' rest h p hd
  exact ⟨p', hp', ((C48_counted_parts_unique _).1 _ _ _ _ _ _ ((C48_record_sets_decode prof b' rest).2 p' hp')
    (hx _ ((C48_record_sets_decode prof b rest).2 p hd))).1⟩

/-- The information operations kinds, only octets before the records (from octet 38, or 54) hurt. -/
theorem C60_variable_records (k : PduKind) (start : Nat)
    (hk : (k = .InformationOperationsReport ∧ start = 40) ∨ (k = .InformationOperationsAction ∧ start = 56))
    (prof prof' : Profile) (hurt : Nat → Prop) (ht : ¬ hurt 2) (hs : ∀ j, start - 2 ≤ j → ¬ hurt j)
    (b b' rest : Bytes) (h : Damaged hurt b b') (p : Pdu k.Body) (hd : k.decode prof b = .ok (.ok p, rest)) :
    ∃ p', k.decode prof' b' = .ok (.ok p', rest) ∧
      (∀ s ∈ PduHeader.layout, s.Spared hurt → s.value p'.header = s.value p.header) ∧
      ∀ s ∈ k.layoutTable, s.Spared hurt → s.value p'.body = s.value p.body := by
  have hst : 40 ≤ start := by omega
  obtain ⟨hh, hty, _⟩ := C09_ok_only_own_type k prof b p rest hd
  have hh' : 12 ≤ b'.length := by rw [h.1]; exact hh
  have hty' : (b'.getD 2 0).toNat = k.typeCode := by rw [h.at 2 ht]; exact hty
  have c := C14_variable_records k start hk prof b hh hty
  have c' := C14_variable_records k start hk prof' b' hh' hty'
  have e40 : b'.drop start = b.drop start := h.tail start fun j hj => hs j (by omega)
  have e36 : u16At b' (start - 2) = u16At b (start - 2) := by
    unfold u16At
    rw [h.at (start - 2) (hs _ (by omega)), h.at (start - 2 + 1) (hs _ (by omega))]
  rw [e36, e40, h.1] at c'
  by_cases hl : b.length < start
  · rw [c.1 hl] at hd; cases hd
  · obtain ⟨c1, c2⟩ := c.2 (by omega)
    obtain ⟨c1', c2'⟩ := c'.2 (by omega)
    cases hr : variableRecordOctets (u16At b (start - 2)) (b.drop start) with
    | none => rw [c1 hr] at hd; cases hd
    | some n =>
      obtain ⟨x, hx⟩ := c2 n hr
      obtain ⟨p', hp'⟩ := c2' n hr
      have hx' := hx
      rw [hd] at hx'
      simp only [Except.ok.injEq, Prod.mk.injEq] at hx'
      have e : b'.drop (start + n) = rest := by
        rw [hx'.2, ← List.drop_drop, ← List.drop_drop, e40]
      rw [e] at hp'
      exact ⟨p', hp', h.spared hd hp'⟩
/-- The records themselves are the same. -/
theorem C60_information_operations (prof prof' : Profile) (hurt : Nat → Prop) (ht : ¬ hurt 2)
    (b b' rest : Bytes) (h : Damaged hurt b b') :
    (∀ p : Pdu InformationOperationsReportPdu, (∀ j, 38 ≤ j → ¬ hurt j) →
      decodeAs InformationOperationsReportPdu prof b = .ok (.ok p, rest) →
      ∃ p', decodeAs InformationOperationsReportPdu prof' b' = .ok (.ok p', rest) ∧
        p'.body.io_records = p.body.io_records) ∧
    (∀ p : Pdu InformationOperationsActionPdu, (∀ j, 54 ≤ j → ¬ hurt j) →
      decodeAs InformationOperationsActionPdu prof b = .ok (.ok p, rest) →
      ∃ p', decodeAs InformationOperationsActionPdu prof' b' = .ok (.ok p', rest) ∧
        p'.body.io_records = p.body.io_records) := by
  refine ⟨fun p hs hd => ?_, fun p hs hd => ?_⟩
  · obtain ⟨p', hp', _⟩ := C60_variable_records .InformationOperationsReport 40 (.inl ⟨rfl, rfl⟩) prof prof' hurt ht hs
      b b' rest h p hd
    have h1 := (C48_variable_records_decode prof b rest).1 p hd
    have h2 := (C48_variable_records_decode prof' b' rest).1 p' hp'
    rw [h.tail 38 hs] at h2
    exact ⟨p', hp', ((C48_counted_parts_unique _).2 _ _ _ _ h2 h1).1⟩
  · obtain ⟨p', hp', _⟩ := C60_variable_records .InformationOperationsAction 56 (.inr ⟨rfl, rfl⟩) prof prof' hurt ht hs
      b b' rest h p hd
    have h1 := (C48_variable_records_decode prof b rest).2 p hd
    have h2 := (C48_variable_records_decode prof' b' rest).2 p' hp'
    rw [h.tail 54 hs] at h2
    exact ⟨p', hp', ((C48_counted_parts_unique _).2 _ _ _ _ h2 h1).1⟩

/-! ### The header and the rest -/

/-- Only the header hurt, and not its type: decoded still, for every kind, and all but the header is the same, the
variable parts included. -/
theorem C60_header_damage (k : PduKind) (prof : Profile) (hurt : Nat → Prop) (ht : ¬ hurt 2)
    (hs : ∀ j, 12 ≤ j → ¬ hurt j) (b b' rest : Bytes) (h : Damaged hurt b b') (p : Pdu k.Body)
    (hd : k.decode prof b = .ok (.ok p, rest)) :
    ∃ p', k.decode prof b' = .ok (.ok p', rest) ∧ p'.body = p.body := by
  obtain ⟨hh, hty, _⟩ := C09_ok_only_own_type k prof b p rest hd
  obtain ⟨e, _, e2, e3⟩ := Pdu.deserialize_eq (B := k.Body) prof b hh
  obtain ⟨e', _, e2', e3'⟩ := Pdu.deserialize_eq (B := k.Body) prof b' (by rw [h.1]; exact hh)
  rw [h.at 2 ht, ← e2] at e2'
  rw [h.tail 12 hs, e2'] at e3'
  rw [show k.decode prof b = _ from e3] at hd
  show ∃ p', (Pdu.deserialize : Get (Except DISError (Pdu k.Body))) prof b' = _ ∧ _
  rw [e3']
  by_cases hne : e.pdu_type ≠ PduBody.pduType k.Body
  · rw [if_pos hne] at hd; cases hd
  · rw [if_neg hne] at hd ⊢
    cases hb : (PduBody.deserializeBody : Get k.Body) prof (b.drop 12) with
    | error x => rw [hb] at hd; cases hd
    | ok xr => rw [hb] at hd; cases hd; exact ⟨_, rfl, rfl⟩

/-- The header spared: whatever is hurt after it, a message that is still decoded has the same header, and if it is
not decoded that is a panic, never an error. -/
theorem C60_header_kept (k : PduKind) (prof prof' : Profile) (hurt : Nat → Prop) (hs : ∀ j, j < 12 → ¬ hurt j)
    (b b' rest : Bytes) (h : Damaged hurt b b') (p : Pdu k.Body)
    (hd : k.decode prof b = .ok (.ok p, rest)) :
    (∃ e, k.decode prof' b' = .error e) ∨
      ∃ p' rest', k.decode prof' b' = .ok (.ok p', rest') ∧ p'.header = p.header := by
  obtain ⟨hh, hty, _⟩ := C09_ok_only_own_type k prof b p rest hd
  cases hd' : k.decode prof' b' with
  | error e => exact .inl ⟨e, rfl⟩
  | ok r =>
    obtain ⟨o, rest'⟩ := r
    refine .inr ?_
    cases o with
    | error e =>
      have h2 := h.at 2 (hs 2 (by decide))
      obtain ⟨x, _, x2, x3⟩ := Pdu.deserialize_eq (B := k.Body) prof b hh
      obtain ⟨y, _, y2, y3⟩ := Pdu.deserialize_eq (B := k.Body) prof' b' (by rw [h.1]; exact hh)
      rw [h2, ← x2] at y2
      rw [show k.decode prof b = _ from x3] at hd
      rw [show k.decode prof' b' = _ from y3, y2] at hd'
      by_cases hne : x.pdu_type ≠ PduBody.pduType k.Body
      · rw [if_pos hne] at hd; cases hd
      · rw [if_neg hne] at hd'
        cases hb : (PduBody.deserializeBody : Get k.Body) prof' (b'.drop 12) with
        | error x => rw [hb] at hd'; cases hd'
        | ok xr => rw [hb] at hd'; cases hd'
    | ok p' =>
      refine ⟨p', rest', rfl, PduHeader.agree ?_⟩
      rw [← PduHeader.layout_eq]
      intro s hm
      refine (h.spared hd hd').1 s hm fun j _ h2 => hs j ?_
      have : ∀ s ∈ PduHeader.layout, s.stop ≤ 12 := by decide
      have := this s hm
      omega

/-! ### One octet -/

theorem Contiguous.bounds {B : Type} : ∀ {l : List (Slot B)} {a z : Nat}, Contiguous a l z →
    a ≤ z ∧ ∀ s ∈ l, a ≤ s.offset ∧ s.stop ≤ z
  | [], _, _, h => ⟨Nat.le_of_eq h, fun _ h => nomatch h⟩
  | s :: l, a, z, h => by
    obtain ⟨h1, _, h3⟩ := h
    obtain ⟨i1, i2⟩ := h3.bounds
    refine ⟨by omega, fun t ht => ?_⟩
    cases ht with
    | head => exact ⟨by omega, by show s.offset + s.width ≤ z; omega⟩
    | tail _ ht => exact ⟨by have := (i2 t ht).1; omega, (i2 t ht).2⟩

/-- An octet belongs to one field at most. -/
theorem Contiguous.one {B : Type} : ∀ {l : List (Slot B)} {a z : Nat}, Contiguous a l z →
    ∀ {i i' : Nat} {s s' : Slot B} {j : Nat}, l[i]? = some s → l[i']? = some s' →
      s.offset ≤ j → j < s.stop → s'.offset ≤ j → j < s'.stop → i = i'
  | [], _, _, _, i, _, _, _, _, h1, _, _, _, _, _ => by simp at h1
  | t :: l, a, z, h, i, i', s, s', j, h1, h2, b1, b2, b3, b4 => by
    obtain ⟨c1, _, c3⟩ := h
    have hb := c3.bounds.2
    cases i with
    | zero =>
      cases i' with
      | zero => rfl
      | succ i' =>
        simp only [List.getElem?_cons_zero, Option.some.injEq] at h1
        rw [List.getElem?_cons_succ] at h2
        have := (hb s' (List.mem_of_getElem? h2)).1
        subst h1
        unfold Slot.stop at b2
        omega
    | succ i =>
      cases i' with
      | zero =>
        simp only [List.getElem?_cons_zero, Option.some.injEq] at h2
        rw [List.getElem?_cons_succ] at h1
        have := (hb s (List.mem_of_getElem? h1)).1
        subst h2
        unfold Slot.stop at b4
        omega
      | succ i' =>
        rw [List.getElem?_cons_succ] at h1 h2
        rw [c3.one h1 h2 b1 b2 b3 b4]

/-- An octet belongs to one field at least. -/
theorem Contiguous.covers {B : Type} : ∀ {l : List (Slot B)} {a z : Nat}, Contiguous a l z →
    ∀ {j : Nat}, a ≤ j → j < z → ∃ s ∈ l, s.offset ≤ j ∧ j < s.stop
  | [], a, z, h, j, h1, h2 => by have : a = z := h; omega
  | s :: l, a, z, h, j, h1, h2 => by
    obtain ⟨c1, _, c3⟩ := h
    by_cases hj : j < a + s.width
    · exact ⟨s, List.mem_cons_self, by omega, by unfold Slot.stop; omega⟩
    · obtain ⟨t, ht, r⟩ := c3.covers (j := j) (by omega) h2
      exact ⟨t, List.mem_cons_of_mem _ ht, r⟩

/-- A single octet hurt, anywhere: if both messages are decoded, they differ in one field at most. -/
theorem C60_one_octet (k : PduKind) (prof prof' : Profile) (hurt : Nat) (b b' rest rest' : Bytes)
    (h : Damaged (· = hurt) b b') (p p' : Pdu k.Body) (hd : k.decode prof b = .ok (.ok p, rest))
    (hd' : k.decode prof' b' = .ok (.ok p', rest')) :
    (p'.header = p.header ∨ ∀ s ∈ k.layoutTable, s.value p'.body = s.value p.body) ∧
    (∀ (i i' : Nat) (s s' : Slot PduHeader), PduHeader.layout[i]? = some s → PduHeader.layout[i']? = some s' →
      s.value p'.header ≠ s.value p.header → s'.value p'.header ≠ s'.value p.header → i = i') ∧
    (∀ (i i' : Nat) (s s' : Slot k.Body), k.layoutTable[i]? = some s → k.layoutTable[i']? = some s' →
      s.value p'.body ≠ s.value p.body → s'.value p'.body ≠ s'.value p.body → i = i') := by
  obtain ⟨r1, r2⟩ := h.spared hd hd'
  obtain ⟨c1, c2⟩ := C48_complete k
  have hit1 : ∀ s ∈ PduHeader.layout, s.value p'.header ≠ s.value p.header → s.offset ≤ hurt ∧ hurt < s.stop := by
    intro s hs hne
    refine Classical.byContradiction fun hn => hne (r1 s hs fun j h1 h2 e => ?_)
    subst e
    exact hn ⟨h1, h2⟩
  have hit2 : ∀ s ∈ k.layoutTable, s.value p'.body ≠ s.value p.body → s.offset ≤ hurt ∧ hurt < s.stop := by
    intro s hs hne
    refine Classical.byContradiction fun hn => hne (r2 s hs fun j h1 h2 e => ?_)
    subst e
    exact hn ⟨h1, h2⟩
  refine ⟨?_, fun i i' s s' m m' n n' => ?_, fun i i' s s' m m' n n' => ?_⟩
  · by_cases hj : hurt < 12
    · refine .inr fun s hs => Classical.byContradiction fun hne => ?_
      have := (c2.bounds.2 s hs).1
      have := (hit2 s hs hne).1
      omega
    · refine .inl (PduHeader.agree ?_)
      rw [← PduHeader.layout_eq]
      refine fun s hs => Classical.byContradiction fun hne => ?_
      have := (c1.bounds.2 s hs).2
      have := (hit1 s hs hne).2
      omega
  · exact c1.one m m' (hit1 s (List.mem_of_getElem? m) n).1 (hit1 s (List.mem_of_getElem? m) n).2
      (hit1 s' (List.mem_of_getElem? m') n').1 (hit1 s' (List.mem_of_getElem? m') n').2
  · exact c2.one m m' (hit2 s (List.mem_of_getElem? m) n).1 (hit2 s (List.mem_of_getElem? m) n).2
      (hit2 s' (List.mem_of_getElem? m') n').1 (hit2 s' (List.mem_of_getElem? m') n').2

/-! ### The sender -/

/-- Two octet strings that hold the same number in a slot have the same octets there. -/
theorem Slot.same_octets {B : Type} {s : Slot B} {w w' : Bytes} (h1 : s.stop ≤ w.length) (h2 : s.stop ≤ w'.length)
    (h : s.found w' = s.found w) (j : Nat) (ha : s.offset ≤ j) (hb : j < s.stop) : w'[j]? = w[j]? := by
  unfold Slot.stop at h1 h2 hb
  have e := bigEndian_inj (by simp only [List.length_take, List.length_drop]; omega) h
  have := congrArg (fun l : Bytes => l[j - s.offset]?) e
  simp only [List.getElem?_take_of_lt (show j - s.offset < s.width by omega), List.getElem?_drop,
    show s.offset + (j - s.offset) = j by omega] at this
  exact this

/-- Two messages of one kind: where they have a field in common, in the header or after it, `serialize` writes the
same octets for it. (`q` is the message as `serialize` leaves it, with the length filled in.) -/
theorem C60_change_octets (k : PduKind) (p p' q q' : Pdu k.Body) (prof prof' : Profile)
    (w w' : Bytes) (h : p.serialize prof [] = .ok ((q, .ok ()), w))
    (h' : p'.serialize prof' [] = .ok ((q', .ok ()), w')) :
    (∀ s ∈ PduHeader.layout, s.value q'.header = s.value q.header →
      ∀ j, s.offset ≤ j → j < s.stop → w'[j]? = w[j]?) ∧
    ∀ s ∈ k.layoutTable, s.value q'.body = s.value q.body →
      ∀ j, s.offset ≤ j → j < s.stop → w'[j]? = w[j]? := by
  obtain ⟨v, hv, v1, v2⟩ := C48_encode k p q prof [] w h
  obtain ⟨v', hv', v1', v2'⟩ := C48_encode k p' q' prof' [] w' h'
  rw [List.nil_append] at hv hv'
  subst hv hv'
  refine ⟨fun s hs e => Slot.same_octets (v1 s hs).1 (v1' s hs).1 ?_,
    fun s hs e => Slot.same_octets (v2 s hs).1 (v2' s hs).1 ?_⟩
  · rw [(v1 s hs).2, (v1' s hs).2]; unfold Slot.transmitted; rw [e]
  · rw [(v2 s hs).2, (v2' s hs).2]; unfold Slot.transmitted; rw [e]

/-- For a kind with a fixed layout: the octets of the two messages differ only within fields in which the messages
differ. -/
theorem C60_change (k : PduKind) (hk : k.fixedLayout = true) (p p' q q' : Pdu k.Body) (prof prof' : Profile)
    (w w' : Bytes) (h : p.serialize prof [] = .ok ((q, .ok ()), w))
    (h' : p'.serialize prof' [] = .ok ((q', .ok ()), w')) :
    Damaged (fun j => (∃ s ∈ PduHeader.layout, s.value q'.header ≠ s.value q.header ∧ s.offset ≤ j ∧ j < s.stop) ∨
      ∃ s ∈ k.layoutTable, s.value q'.body ≠ s.value q.body ∧ s.offset ≤ j ∧ j < s.stop) w w' := by
  have hlen : ∀ (p q : Pdu k.Body) (prof : Profile) (w : Bytes),
      p.serialize prof [] = .ok ((q, .ok ()), w) → w.length = k.ieeeOctets := by
    intro p q prof w h
    have h4 := (C04_declared_length k (k.layout_exact hk) p _ prof [] _ h).1
    have h6 := C06_length_not_truncated k p _ prof [] _ h
    rw [declaredOctets_eq, k.layout_len hk] at h6
    rw [List.length_nil] at h4
    omega
  have l1 := hlen _ _ _ _ h
  have l2 := hlen _ _ _ _ h'
  obtain ⟨r1, r2⟩ := C60_change_octets k p p' q q' prof prof' w w' h h'
  obtain ⟨c1, c2⟩ := C48_complete k
  have c2 : Contiguous 12 k.layoutTable k.ieeeOctets := by
    cases k <;> first | exact c2 | exact absurd hk (by decide)
  refine ⟨by rw [l1, l2], fun j hj => ?_⟩
  by_cases hlt : j < k.ieeeOctets
  · by_cases h12 : j < 12
    · obtain ⟨s, hs, ha, hb⟩ := c1.covers (Nat.zero_le j) h12
      refine r1 s hs (Classical.byContradiction fun hne => hj (.inl ⟨s, hs, hne, ha, hb⟩)) j ha hb
    · obtain ⟨s, hs, ha, hb⟩ := c2.covers (Nat.not_lt.mp h12) hlt
      refine r2 s hs (Classical.byContradiction fun hne => hj (.inr ⟨s, hs, hne, ha, hb⟩)) j ha hb
  · rw [List.getElem?_eq_none (by omega), List.getElem?_eq_none (by omega)]

/-! ### Cases -/

/-- a fire PDU of 96 octets and the same with the first octet of its range turned -/
def C60_fire : Bytes := [7, 1, 2, 2] ++ List.replicate 88 0 ++ [0x3f, 0x80, 0, 0]
def C60_turned : Bytes := [7, 1, 2, 2] ++ List.replicate 88 0 ++ [0xbf, 0x80, 0, 0]

/-- What is hurt is octet 92; both are decoded, the ranges are different, and nothing else is. -/
example : Damaged (· = 92) C60_fire C60_turned ∧
    ∃ p p', PduKind.decode .Fire ⟨true⟩ C60_fire = .ok (.ok p, []) ∧
      PduKind.decode .Fire ⟨true⟩ C60_turned = .ok (.ok p', []) ∧
      p.body.range.bits.toNat = 0x3f800000 ∧ p'.body.range.bits.toNat = 0xbf800000 ∧
      p'.header = p.header ∧ p' = { p with body := { p.body with range := p'.body.range } } := by
  have hdm : Damaged (· = 92) C60_fire C60_turned := by
    refine ⟨by decide, fun j hj => ?_⟩
    by_cases h : j < 96
    · exact (by decide +kernel : ∀ j < 96, j ≠ 92 → C60_turned[j]? = C60_fire[j]?) j h hj
    · rw [List.getElem?_eq_none (by have : C60_turned.length = 96 := by decide
                                    omega),
        List.getElem?_eq_none (by have : C60_fire.length = 96 := by decide
                                  omega)]
  refine ⟨hdm, ?_⟩
  obtain ⟨p, hp⟩ := (C14_panics_iff_short .Fire rfl (by decide) ⟨true⟩ C60_fire (by decide) (by decide)).2 (by decide)
  obtain ⟨p', n, hn, hp', s1, s2⟩ := C60_contained .Fire rfl ⟨true⟩ ⟨true⟩ (· = 92) (by decide) _ _ _ hdm p hp
  have e : C60_turned.drop n = [] := by
    have hn : [] = C60_fire.drop n := hn
    have := congrArg List.length hn
    rw [List.length_drop] at this
    refine List.eq_nil_of_length_eq_zero ?_
    rw [List.length_drop, hdm.1]
    exact this.symm
  rw [e] at hp'
  have h1 := ((C48_decode .Fire ⟨true⟩ _ _ p hp).2 (Slot.f32 92 (·.range))
    (List.mem_of_getElem (i := 30) (h := by decide) rfl)).2
  have h2 := ((C48_decode .Fire ⟨true⟩ _ _ p' hp').2 (Slot.f32 92 (·.range))
    (List.mem_of_getElem (i := 30) (h := by decide) rfl)).2
  have sp : p' = { p with body := { p.body with range := p'.body.range } } := by
    refine C48_determines .Fire rfl _ _ (fun s hs => s1 s hs ?_) fun s hs => ?_
    · have : ∀ s ∈ PduHeader.layout, s.stop ≤ 12 := by decide
      have := this s hs
      exact fun j _ h2 e => by omega
    · have key : ∀ s ∈ PduKind.layoutTable .Fire, (∀ (x : FirePdu) r, s.value { x with range := r } = s.value x) ∧
          s.Spared (· = 92) ∨ s.value = fun x : FirePdu => x.range.bits.toNat := by
        repeat
          refine List.forall_mem_cons.mpr ⟨?_, ?_⟩
          · first
            | exact .inr rfl
            | exact .inl ⟨fun _ _ => rfl, fun j h1 h2 e => by subst e; revert h1 h2; decide⟩
        exact fun _ h => nomatch h
      obtain ⟨k1, k2⟩ | k1 := key s hs
      · rw [s2 s hs k2]; exact (k1 p.body p'.body.range).symm
      · rw [k1]
  exact ⟨p, p', hp, hp', h1.trans (by decide +kernel), h2.trans (by decide +kernel), by rw [sp], sp⟩

/-- The type hurt: the detonation PDU is not decoded from what was a fire PDU, and the fire decoder refuses it. -/
example : (match PduKind.decode .Fire ⟨true⟩ (C60_fire.set 2 3) with
    | .ok (.error (.InvalidHeader _), _) => true
    | _ => false) = true := by decide +kernel

/-- A hurt octet before the record sets of a set record message: the sets are decoded as before. -/
example : (match decodeAs SetRecordReliablePdu ⟨true⟩ (C48_setRecord.set 24 200) with
    | .ok (.ok p, rest) => decide (rest = [77] ∧ p.body.record_sets = ⟨1, [⟨5, 9, 3, 2, [1, 2, 3, 4, 5, 6]⟩]⟩)
    | _ => false) = true := by decide +kernel

/-- A hurt count is another matter (which is why the theorem asks that it be spared). -/
example : (match decodeAs SetRecordReliablePdu ⟨true⟩ (C48_setRecord.set 39 2) with
    | .error _ => true
    | _ => false) = true := by decide +kernel

/-- A hurt octet of the modulation parameters of a transmitter PDU. -/
example : (match decodeAs TransmitterPdu ⟨true⟩
      ([7, 1, 25, 4] ++ List.replicate 96 0 ++ [3, 0, 0, 0] ++ [10, 77, 12]) with
    | .ok (.ok p, rest) => decide (rest = [] ∧ p.body.modulation_parameters = some ⟨[10, 77, 12]⟩)
    | _ => false) = true := by decide +kernel

/-- One octet replaced. -/
theorem Damaged.set (b : Bytes) (i : Nat) (v : UInt8) : Damaged (· = i) b (b.set i v) :=
  ⟨List.length_set .., fun _ h => List.getElem?_set_ne (fun e => h e.symm)⟩

/-- Showing that particular octets are decoded. -/
theorem decoded_of {k : PduKind} {prof : Profile} {b rest : Bytes}
    (h : (match k.decode prof b with
      | .ok (.ok _, r) => decide (r = rest)
      | _ => false) = true) : ∃ p, k.decode prof b = .ok (.ok p, rest) := by
  cases hd : k.decode prof b with
  | error e => rw [hd] at h; exact Bool.noConfusion h
  | ok x =>
    obtain ⟨o, r⟩ := x
    cases o with
    | error e => rw [hd] at h; exact Bool.noConfusion h
    | ok p =>
      rw [hd] at h
      have h : decide (r = rest) = true := h
      rw [of_decide_eq_true h]
      exact ⟨p, rfl⟩

/-- The fire PDU with its type turned into that of a detonation. -/
example : ∃ p, PduKind.decode .Fire ⟨true⟩ C60_fire = .ok (.ok p, []) ∧
    PduKind.decode .Fire ⟨false⟩ (C60_fire.set 2 3) = .ok (.error (.InvalidHeader ("Expected PDU type " ++
      pduTypeName 2 ++ ", got " ++ pduTypeName 3)), C60_fire.drop 12) := by
  obtain ⟨p, hp⟩ := decoded_of (k := .Fire) (prof := ⟨true⟩) (b := C60_fire) (rest := []) (by decide +kernel)
  exact ⟨p, hp, C60_type .Fire ⟨true⟩ ⟨false⟩ C60_fire (C60_fire.set 2 3) [] (by decide) p hp (by decide)⟩

/-- The range of the fire PDU hurt, or its exercise identifier. -/
example : ∃ p, PduKind.decode .Fire ⟨true⟩ C60_fire = .ok (.ok p, []) ∧
    ((∃ e, PduKind.decode .Fire ⟨false⟩ (C60_fire.set 92 1) = .error e) ∨ ∃ p' rest',
      PduKind.decode .Fire ⟨false⟩ (C60_fire.set 92 1) = .ok (.ok p', rest') ∧ p'.header = p.header) ∧
    ∃ p', PduKind.decode .Fire ⟨true⟩ (C60_fire.set 1 9) = .ok (.ok p', []) ∧ p'.body = p.body := by
  obtain ⟨p, hp⟩ := decoded_of (k := .Fire) (prof := ⟨true⟩) (b := C60_fire) (rest := []) (by decide +kernel)
  exact ⟨p, hp, C60_header_kept .Fire _ _ (· = 92) (fun j h e => by omega) _ _ _ (Damaged.set ..) p hp,
    C60_header_damage .Fire _ (· = 1) (by decide) (fun j h e => by omega) _ _ _ (Damaged.set ..) p hp⟩

/-- `C60_one_octet` and the octets of the range. -/
example : ∃ p p' : Pdu FirePdu, PduKind.decode .Fire ⟨true⟩ C60_fire = .ok (.ok p, []) ∧
    PduKind.decode .Fire ⟨true⟩ (C60_fire.set 92 1) = .ok (.ok p', []) ∧ p'.header = p.header ∧ p'.body ≠ p.body := by
  obtain ⟨p, hp⟩ := decoded_of (k := .Fire) (prof := ⟨true⟩) (b := C60_fire) (rest := []) (by decide +kernel)
  obtain ⟨p', hp'⟩ := decoded_of (k := .Fire) (prof := ⟨true⟩) (b := C60_fire.set 92 1) (rest := []) (by decide +kernel)
  have h1 := ((C48_decode .Fire ⟨true⟩ _ _ p hp).2 (Slot.f32 92 (·.range))
    (List.mem_of_getElem (i := 30) (h := by decide) rfl)).2
  have h2 := ((C48_decode .Fire ⟨true⟩ _ _ p' hp').2 (Slot.f32 92 (·.range))
    (List.mem_of_getElem (i := 30) (h := by decide) rfl)).2
  have hne : p'.body ≠ p.body := by
    intro e
    rw [e, h1] at h2
    exact absurd h2 (by decide +kernel)
  refine ⟨p, p', hp, hp', ?_, hne⟩
  rcases (C60_one_octet .Fire _ _ 92 _ _ _ _ (Damaged.set ..) p p' hp hp').1 with h | h
  · exact h
  · have e := h (Slot.f32 92 (·.range)) (List.mem_of_getElem (i := 30) (h := by decide) rfl)
    rw [h1, h2] at e
    exact absurd e (by decide +kernel)

/-- The last octet of the modulation parameters of a transmitter PDU hurt. -/
example : ∃ p p', decodeAs TransmitterPdu ⟨true⟩ (C49_transmitter 112) = .ok (.ok p, []) ∧
    decodeAs TransmitterPdu ⟨false⟩ ((C49_transmitter 112).set 111 255) = .ok (.ok p', []) ∧
    (p.body.modulation_parameters = none ∧ p'.body.modulation_parameters = none ∨
        ∃ m m', p.body.modulation_parameters = some m ∧ p'.body.modulation_parameters = some m' ∧
          Damaged (fun j => 104 + j = 111) m.record_specific_fields m'.record_specific_fields) := by
  obtain ⟨p, hp⟩ := decoded_of (k := .Transmitter) (prof := ⟨true⟩) (b := C49_transmitter 112) (rest := []) (by decide +kernel)
  obtain ⟨p', n, hn, hp', _, _, h⟩ := C60_transmitter ⟨true⟩ ⟨false⟩ (· = 111) (by decide) (by decide) _ _ _
    (Damaged.set _ 111 255) p hp
  have hl := congrArg List.length hn
  rw [List.length_drop, List.length_nil] at hl
  rw [List.drop_eq_nil_of_le (by rw [List.length_set]; omega)] at hp'
  exact ⟨p, p', hp, hp', h⟩

/-- The sample set record message with its required reliability service hurt. -/
example : ∃ p p', decodeAs SetRecordReliablePdu ⟨true⟩ C48_setRecord = .ok (.ok p, [77]) ∧
    decodeAs SetRecordReliablePdu ⟨true⟩ (C48_setRecord.set 28 200) = .ok (.ok p', [77]) ∧
    p'.body.record_sets = p.body.record_sets := by
  obtain ⟨p, hp⟩ := decoded_of (k := .SetRecordReliable) (prof := ⟨true⟩) (b := C48_setRecord) (rest := [77]) (by decide +kernel)
  obtain ⟨p', h⟩ := C60_set_record ⟨true⟩ (· = 28) (by decide) (fun j h e => by omega) _ _ _ (Damaged.set ..) p hp
  exact ⟨p, p', hp, h⟩

/-- A transfer ownership message with the same record sets. -/
example : ∃ p p', decodeAs TransferOwnershipPdu ⟨true⟩ (C48_setRecord.set 2 35) = .ok (.ok p, [77]) ∧
    decodeAs TransferOwnershipPdu ⟨true⟩ ((C48_setRecord.set 2 35).set 28 200) = .ok (.ok p', [77]) ∧
    p'.body.record_information = p.body.record_information := by
  obtain ⟨p, hp⟩ := decoded_of (k := .TransferOwnership) (prof := ⟨true⟩) (b := C48_setRecord.set 2 35) (rest := [77])
    (by decide +kernel)
  obtain ⟨p', h⟩ := C60_transfer_ownership ⟨true⟩ (· = 28) (by decide) (fun j h e => by omega) _ _ _ (Damaged.set ..) p hp
  exact ⟨p, p', hp, h⟩

/-- Information operations messages with two records. -/
def C60_report : Bytes := [7, 1, 71, 13] ++ List.replicate 34 0 ++ [0, 2] ++ [0, 0, 0, 1, 0, 2, 8, 9] ++ [0, 0, 0, 4, 0, 0]
def C60_action : Bytes := [7, 1, 70, 13] ++ List.replicate 50 0 ++ [0, 2] ++ [0, 0, 0, 1, 0, 2, 8, 9] ++ [0, 0, 0, 4, 0, 0]
example : ∃ p p', decodeAs InformationOperationsReportPdu ⟨true⟩ C60_report = .ok (.ok p, []) ∧
    decodeAs InformationOperationsReportPdu ⟨false⟩ (C60_report.set 13 200) = .ok (.ok p', []) ∧
    p'.body.io_records = p.body.io_records := by
  obtain ⟨p, hp⟩ := decoded_of (k := .InformationOperationsReport) (prof := ⟨true⟩) (b := C60_report) (rest := [])
    (by decide +kernel)
  obtain ⟨p', h⟩ := (C60_information_operations ⟨true⟩ ⟨false⟩ (· = 13) (by decide) _ _ _ (Damaged.set ..)).1 p
    (fun j h e => by omega) hp
  exact ⟨p, p', hp, h⟩
example : ∃ p p', decodeAs InformationOperationsActionPdu ⟨true⟩ C60_action = .ok (.ok p, []) ∧
    decodeAs InformationOperationsActionPdu ⟨false⟩ (C60_action.set 13 200) = .ok (.ok p', []) ∧
    p'.body.io_records = p.body.io_records := by
  obtain ⟨p, hp⟩ := decoded_of (k := .InformationOperationsAction) (prof := ⟨true⟩) (b := C60_action) (rest := [])
    (by decide +kernel)
  obtain ⟨p', h⟩ := (C60_information_operations ⟨true⟩ ⟨false⟩ (· = 13) (by decide) _ _ _ (Damaged.set ..)).2 p
    (fun j h e => by omega) hp
  exact ⟨p, p', hp, h⟩

/-- Two fire PDUs, the other with a range. -/
example : ∃ (q q' : Pdu FirePdu) (w w' : Bytes), (Pdu.new 7 : Pdu FirePdu).serialize ⟨true⟩ [] = .ok ((q, .ok ()), w) ∧
    C48_fire.serialize ⟨true⟩ [] = .ok ((q', .ok ()), w') ∧ w'[92]? ≠ w[92]? := by
  have h1 := Pdu.serialize_of_encodable (Pdu.new 7 : Pdu FirePdu) (PduKind.encodable .Fire rfl _)
    (by show 12 + FirePdu.fieldsLen _ < 65536; decide +kernel) ⟨true⟩ []
  have h2 := Pdu.serialize_of_encodable C48_fire (PduKind.encodable .Fire rfl _)
    (by show 12 + FirePdu.fieldsLen _ < 65536; decide +kernel) ⟨true⟩ []
  exact ⟨_, _, _, _, h1, h2, by decide +kernel⟩

end Dis
