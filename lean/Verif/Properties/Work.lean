import Verif.Properties.Crash
import Verif.Proofs.Needs
/-
C55: how much a decoder reads, and how much memory it reserves, for how much input.
-/
set_option maxRecDepth 8000
namespace Dis

theorem Steps.work {α : Type} (g : Get α) [Steps g] (prof : Profile) (b : Bytes) :
    reads (g.log prof b) ≤ octetsTaken (g.log prof b) ∧ octetsTaken (g.log prof b) ≤ b.length ∧
    (∀ a r, g prof b = .ok (a, r) → octetsTaken (g.log prof b) = b.length - r.length) := by
  refine ⟨reads_le_taken _ (Steps.shape prof b), Steps.within prof b, fun a r h => ?_⟩
  have h1 := congrArg List.length (Steps.ok_eq g h)
  have h2 := Steps.within (g := g) prof b
  rw [List.length_drop] at h1
  omega

/-- Decoding a whole message, on any input, whether it succeeds or panics: every read takes at least one octet, and no octet
is taken twice or from beyond the end, so there are at most as many reads as octets of input; when it succeeds, the
octets taken are those that are missing from the buffer. -/
theorem C55_reads (k : PduKind) (prof : Profile) (b : Bytes) :
    reads (k.decode.log prof b) ≤ octetsTaken (k.decode.log prof b) ∧
    octetsTaken (k.decode.log prof b) ≤ b.length ∧
    (∀ p r, k.decode prof b = .ok (p, r) → octetsTaken (k.decode.log prof b) = b.length - r.length) :=
  have := k.steps
  Steps.work _ prof b

/-- The same for every record type by itself, as a method and as a field. -/
theorem C55_record_reads : ∀ r ∈ recordFields, ∀ (prof : Profile) (b : Bytes),
    (reads (r.de.log prof b) ≤ octetsTaken (r.de.log prof b) ∧ octetsTaken (r.de.log prof b) ≤ b.length) ∧
    (reads (r.fieldDe.log prof b) ≤ octetsTaken (r.fieldDe.log prof b) ∧
      octetsTaken (r.fieldDe.log prof b) ≤ b.length) := by
  have h : ∀ r ∈ recordFields, Steps r.de ∧ Steps r.fieldDe := by
    unfold recordFields
    repeat refine List.forall_mem_cons.mpr ⟨⟨by dsimp only; infer_instance, by dsimp only; infer_instance⟩, ?_⟩
    exact fun _ h => nomatch h
  intro r hr prof b
  have := (h r hr).1
  have := (h r hr).2
  have h1 := Steps.work r.de prof b
  have h2 := Steps.work r.fieldDe prof b
  exact ⟨⟨h1.1, h1.2.1⟩, ⟨h2.1, h2.2.1⟩⟩

/-! ### Memory -/

instance {B : Type} [PduBody B] {n : Nat} [Reserves n (PduBody.deserializeBody : Get B)] :
    Reserves n (Pdu.deserialize : Get (Except DISError (Pdu B))) := by
  unfold Pdu.deserialize
  refine @Reserves.bind0 _ _ _ _ _ inferInstance fun _ => ?_
  split
  · infer_instance
  · exact Reserves.last _ _ inferInstance fun _ => inferInstance

instance : Reserves 65535 InformationOperationsReportPdu.deserializeBody := by
  unfold InformationOperationsReportPdu.deserializeBody
  iterate 8 refine @Reserves.bind0 _ _ _ _ _ inferInstance fun _ => ?_
  exact Reserves.last _ _ inferInstance fun _ => inferInstance

instance : Reserves 65535 InformationOperationsActionPdu.deserializeBody := by
  unfold InformationOperationsActionPdu.deserializeBody
  repeat refine @Reserves.bind0 _ _ _ _ _ inferInstance fun _ => ?_
  exact Reserves.last _ _ inferInstance fun _ => inferInstance

/-- The kinds whose decoders reserve memory before reading what it is for. -/
def PduKind.reserving : PduKind → Bool
  | .InformationOperationsReport | .InformationOperationsAction => true
  | _ => false

theorem PduKind.reserves_none (k : PduKind) (h : k.reserving = false) : Reserves 0 (PduBody.deserializeBody : Get k.Body) := by
  cases k
  case InformationOperationsReport => cases h
  case InformationOperationsAction => cases h
  all_goals (show Reserves 0 (_ : Get _); dsimp only [PduBody.deserializeBody]; infer_instance)

/-- All but two kinds reserve nothing in advance: their lists grow as elements are read. -/
theorem C55_no_reservation (k : PduKind) (h : k ≠ .InformationOperationsReport ∧ k ≠ .InformationOperationsAction)
    (prof : Profile) (b : Bytes) : reserved (k.decode.log prof b) = 0 := by
  have := k.reserves_none (by cases k <;> first | rfl | exact absurd rfl h.1 | exact absurd rfl h.2)
  exact Nat.le_zero.mp (Reserves.le prof b)

/-- What is reserved is the 16-bit number at offset `n`, if there are at least `m` octets. -/
def ReservesAt {α : Type} (g : Get α) (m n : Nat) : Prop := ∀ prof b, reserved (g.log prof b) =
  if m ≤ b.length then bigEndian ((b.drop n).take 2) else 0

theorem ReservesAt.after {α β : Type} {g : Get α} {f : α → Get β} {j m n : Nat} (hf : Fixed g j) (h0 : Reserves 0 g)
    (h : ∀ a, ReservesAt (f a) m n) : ReservesAt (g >>= f) (j + m) (j + n) := by
  intro prof b
  rw [M.bind_log, reserved_append, Nat.le_zero.mp (h0.le prof b), Nat.zero_add]
  by_cases hb : b.length < j
  · rw [hf.run_short prof hb, if_neg (by omega)]
    rfl
  · obtain ⟨a, ha⟩ := hf.run_long prof (Nat.not_lt.mp hb)
    rw [ha]
    show reserved ((f a).log prof (b.drop j)) = _
    rw [h, List.length_drop, List.drop_drop]
    by_cases hm : j + m ≤ b.length
    · rw [if_pos hm, if_pos (by omega)]
    · rw [if_neg hm, if_neg (by omega)]

theorem reserved_last {α β : Type} {g : Get α} {f : α → Get β} [h : ∀ a, Reserves 0 (f a)] (prof : Profile) (b : Bytes) :
    reserved ((g >>= f).log prof b) = reserved (g.log prof b) := by
  rw [M.bind_log, reserved_append]
  split
  · rfl
  · rename_i a r _
    have := (h a).le prof r
    omega

theorem reserved_reserve {β : Type} {n : Nat} {f : Unit → Get β} [h : ∀ a, Reserves 0 (f a)] (prof : Profile) (b : Bytes) :
    reserved ((M.reserve n >>= f).log prof b) = n := by
  rw [reserved_last]
  rfl

theorem ReservesAt.last {α β : Type} {g : Get α} {f : α → Get β} {m n : Nat} (h : ReservesAt g m n)
    (h0 : ∀ a, Reserves 0 (f a)) : ReservesAt (g >>= f) m n := fun prof b => by rw [reserved_last, h]

theorem u16At_zero {b : Bytes} (h : 2 ≤ b.length) : u16At b 0 = bigEndian (b.take 2) := by
  match b, h with
  | x :: y :: t, _ => simp [u16At, bigEndian]

theorem getU16_run (prof : Profile) {b : Bytes} (h : 2 ≤ b.length) :
    ∃ n : UInt16, getU16 prof b = .ok (n, b.drop 2) ∧ n.toNat = bigEndian (b.take 2) :=
  ⟨_, getU16_at prof b h, by
    rw [UInt16.toNat_ofNat_of_lt' (by simpa [UInt16.size] using u16At_lt b 0), u16At_zero h]⟩

theorem getU32_run (prof : Profile) {b : Bytes} (h : 4 ≤ b.length) :
    ∃ n : UInt32, getU32 prof b = .ok (n, b.drop 4) ∧ n.toNat = bigEndian (b.take 4) := by
  match b, h with
  | x :: y :: z :: w :: t, _ =>
    refine ⟨UInt32.ofNat (beVal [x, y, z, w]), by rfl, ?_⟩
    have h0 := x.toNat_lt
    have h1 := y.toNat_lt
    have h2 := z.toNat_lt
    have h3 := w.toNat_lt
    rw [UInt32.toNat_ofNat_of_lt', ← bigEndian_eq]
    · rfl
    · rw [← bigEndian_eq]
      simp only [bigEndian, List.length_cons, List.length_nil, UInt32.size]
      omega

theorem StandardVariableSpecification.reserves_at :
    ReservesAt (deserialize_field : Get StandardVariableSpecification) 2 0 := by
  intro prof b
  show reserved (StandardVariableSpecification.deserializeField.log prof b) = _
  unfold StandardVariableSpecification.deserializeField
  rw [M.bind_log, reserved_append, Nat.le_zero.mp (Reserves.le (n := 0) (g := getU16) prof b), Nat.zero_add]
  by_cases hb : b.length < 2
  · rw [fixed_u16.run_short prof hb, if_neg (by omega)]
    rfl
  · obtain ⟨n, hn, hv⟩ := getU16_run prof (Nat.not_lt.mp hb)
    rw [hn, if_pos (by omega), List.drop_zero, ← hv]
    exact reserved_reserve prof _

/-- From the body of a message to the whole message. -/
theorem PduKind.reserved_eq (k : PduKind) {m n : Nat} (h : ReservesAt (PduBody.deserializeBody : Get k.Body) m n)
    (prof : Profile) (b : Bytes) : reserved (k.decode.log prof b) =
      if 12 + m ≤ b.length ∧ (b.getD 2 0).toNat = k.typeCode then bigEndian ((b.drop (12 + n)).take 2) else 0 := by
  show reserved ((PduHeader.deserialize >>= _).log prof b) = _
  rw [M.bind_log, reserved_append, Nat.le_zero.mp (Reserves.le (n := 0) (g := PduHeader.deserialize) prof b), Nat.zero_add]
  by_cases hb : b.length < 12
  · rw [PduHeader.fixed.run_short prof hb, if_neg (by omega)]
    rfl
  · obtain ⟨hd, hr, ht⟩ := PduHeader.deserialize_type prof (Nat.not_lt.mp hb)
    rw [hr]
    show reserved (M.log (if hd.pdu_type ≠ PduBody.pduType k.Body then _ else _) prof (b.drop 12)) = _
    by_cases hk : (b.getD 2 0).toNat = k.typeCode
    · rw [ht, if_neg (fun hn => hn ((k.type_test _).mpr hk)), reserved_last, h, List.length_drop, List.drop_drop]
      by_cases hm : 12 + m ≤ b.length
      · rw [if_pos (by omega), if_pos ⟨hm, hk⟩]
      · rw [if_neg (by omega), if_neg (fun hn => hm hn.1)]
    · rw [ht, if_pos (fun hn => hk ((k.type_test _).mp hn)), if_neg (fun hn => hk hn.2)]
      rfl

theorem InformationOperationsReportPdu.reserves_at : ReservesAt InformationOperationsReportPdu.deserializeBody 28 26 :=
  ReservesAt.after SimulationIdentifier.fixed inferInstance fun _ =>
  ReservesAt.after (EnumSpec.fixed _) inferInstance fun _ =>
  ReservesAt.after (EnumSpec.fixed _) inferInstance fun _ =>
  ReservesAt.after fixed_u8 inferInstance fun _ =>
  ReservesAt.after EntityId.fixed inferInstance fun _ =>
  ReservesAt.after EntityId.fixed inferInstance fun _ =>
  ReservesAt.after fixed_u16 inferInstance fun _ =>
  ReservesAt.after fixed_u16 inferInstance fun _ =>
  ReservesAt.last StandardVariableSpecification.reserves_at inferInstance

theorem InformationOperationsActionPdu.reserves_at : ReservesAt InformationOperationsActionPdu.deserializeBody 44 42 :=
  ReservesAt.after SimulationIdentifier.fixed inferInstance fun _ =>
  ReservesAt.after SimulationIdentifier.fixed inferInstance fun _ =>
  ReservesAt.after fixed_u32 inferInstance fun _ =>
  ReservesAt.after (EnumSpec.fixed _) inferInstance fun _ =>
  ReservesAt.after (EnumSpec.fixed _) inferInstance fun _ =>
  ReservesAt.after (EnumSpec.fixed _) inferInstance fun _ =>
  ReservesAt.after (EnumSpec.fixed _) inferInstance fun _ =>
  ReservesAt.after fixed_u32 inferInstance fun _ =>
  ReservesAt.after EntityId.fixed inferInstance fun _ =>
  ReservesAt.after EntityId.fixed inferInstance fun _ =>
  ReservesAt.after fixed_u16 inferInstance fun _ =>
  ReservesAt.last StandardVariableSpecification.reserves_at inferInstance

/-- The other two reserve room for as many records as the count field says, as soon as it is read, whatever follows it. -/
theorem C55_io_report (prof : Profile) (b : Bytes) :
    reserved ((decodeAs InformationOperationsReportPdu).log prof b) =
      (if 40 ≤ b.length ∧ (b.getD 2 0).toNat = 71 then bigEndian ((b.drop 38).take 2) else 0) ∧
    reserved ((decodeAs InformationOperationsReportPdu).log prof b) ≤ 65535 :=
  ⟨PduKind.reserved_eq .InformationOperationsReport InformationOperationsReportPdu.reserves_at prof b,
    have : Reserves 65535 (PduBody.deserializeBody : Get InformationOperationsReportPdu) :=
      inferInstanceAs (Reserves 65535 InformationOperationsReportPdu.deserializeBody)
    (inferInstance : Reserves 65535 (Pdu.deserialize : Get (Except DISError (Pdu InformationOperationsReportPdu)))).le prof b⟩

theorem C55_io_action (prof : Profile) (b : Bytes) :
    reserved ((decodeAs InformationOperationsActionPdu).log prof b) =
      (if 56 ≤ b.length ∧ (b.getD 2 0).toNat = 70 then bigEndian ((b.drop 54).take 2) else 0) ∧
    reserved ((decodeAs InformationOperationsActionPdu).log prof b) ≤ 65535 :=
  ⟨PduKind.reserved_eq .InformationOperationsAction InformationOperationsActionPdu.reserves_at prof b,
    have : Reserves 65535 (PduBody.deserializeBody : Get InformationOperationsActionPdu) :=
      inferInstanceAs (Reserves 65535 InformationOperationsActionPdu.deserializeBody)
    (inferInstance : Reserves 65535 (Pdu.deserialize : Get (Except DISError (Pdu InformationOperationsActionPdu)))).le prof b⟩

/-- Forty octets, none of them a record, make room for 65535 records; then the decoder panics. -/
example : let b : Bytes := [7, 1, 71, 13, 0, 0, 0, 0, 0, 40, 0, 0] ++ List.replicate 26 0 ++ [255, 255]
    b.length = 40 ∧ reserved ((decodeAs InformationOperationsReportPdu).log ⟨true⟩ b) = 65535 ∧
    (decodeAs InformationOperationsReportPdu) ⟨true⟩ b = .error .bufferUnderflow := by
  refine ⟨by decide, ?_, ?_⟩
  · rw [(C55_io_report _ _).1]; decide
  · decide +kernel

/-- A variable datum record makes room for the number of octets its length in bits says, rounded up, as soon as the length
is read: at most 2 ^ 29. -/
theorem C55_variable_datum (prof : Profile) (b : Bytes) :
    reserved (VariableDatumRecord.deserialize.log prof b) =
      (if 8 ≤ b.length then (bigEndian ((b.drop 4).take 4) + 7) / 8 else 0) ∧
    reserved (VariableDatumRecord.deserialize.log prof b) ≤ 2 ^ 29 := by
  refine ⟨?_, VariableDatumRecord.reserves.le prof b⟩
  unfold VariableDatumRecord.deserialize
  rw [M.bind_log, reserved_append, Nat.le_zero.mp (Reserves.le (n := 0) (g := getU32) prof b), Nat.zero_add]
  by_cases hb : b.length < 4
  · rw [fixed_u32.run_short prof hb, if_neg (by omega)]
    rfl
  · obtain ⟨x, hx, -⟩ := getU32_run prof (Nat.not_lt.mp hb)
    rw [hx]
    show reserved ((getU32 >>= _).log prof (b.drop 4)) = _
    rw [M.bind_log, reserved_append, Nat.le_zero.mp (Reserves.le (n := 0) (g := getU32) prof _), Nat.zero_add]
    by_cases hb' : (b.drop 4).length < 4
    · rw [fixed_u32.run_short prof hb', if_neg (by rw [List.length_drop] at hb'; omega)]
      rfl
    · obtain ⟨n, hn, hv⟩ := getU32_run prof (Nat.not_lt.mp hb')
      rw [hn, if_pos (by rw [List.length_drop] at hb'; omega), ← hv]
      exact reserved_reserve prof _

/-- Eight octets make it reserve (and fill with zeros) 536870912 octets; then it panics. -/
example : let b : Bytes := [0, 0, 0, 1, 255, 255, 255, 255]
    reserved (VariableDatumRecord.deserialize.log ⟨false⟩ b) = 536870912 ∧
    VariableDatumRecord.deserialize ⟨false⟩ b = .error .bufferUnderflow := by
  refine ⟨?_, ?_⟩
  · rw [(C55_variable_datum _ _).1]; decide
  · decide +kernel

/-- No other record type reserves anything in advance, as a method or as a field; except that the record of standard
variables does as a field, not as a method. -/
theorem C55_record_reservations : ∀ r ∈ recordFields, r.name ≠ "VariableDatumRecord" → ∀ (prof : Profile) (b : Bytes),
    reserved (r.de.log prof b) = 0 ∧
    (r.name ≠ "StandardVariableSpecification" → reserved (r.fieldDe.log prof b) = 0) := by
  have h : ∀ r ∈ recordFields, r.name ≠ "VariableDatumRecord" →
      Reserves 0 r.de ∧ (r.name ≠ "StandardVariableSpecification" → Reserves 0 r.fieldDe) := by
    unfold recordFields
    repeat refine List.forall_mem_cons.mpr ⟨by
      first
      | exact fun _ => ⟨by dsimp only; infer_instance, fun _ => by dsimp only; infer_instance⟩
      | exact fun h => absurd rfl h
      | exact fun _ => ⟨by dsimp only; infer_instance, fun h => absurd rfl h⟩, ?_⟩
    exact fun _ h => nomatch h
  intro r hr hn prof b
  have h1 := (h r hr hn).1
  exact ⟨Nat.le_zero.mp (h1.le prof b), fun hs => Nat.le_zero.mp (((h r hr hn).2 hs).le prof b)⟩

end Dis
