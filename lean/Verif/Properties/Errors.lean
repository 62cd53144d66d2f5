import Verif.Proofs.Errors
import Verif.Properties.RoundTrip
/-
C45: errors.  Which errors the crate's operations produce, what they say, and that what they say
identifies what happened.
-/
namespace Dis

private theorem lit_got : ", got ".toList = ',' :: " got ".toList := by decide +kernel
private theorem lit_bytes : " bytes, but only ".toList = ' ' :: "bytes, but only ".toList := by
  decide +kernel
private theorem lit_remain : " bytes remain".toList = ' ' :: "bytes remain".toList := by decide +kernel
private theorem lit_arrow : " -> ".toList = ' ' :: "-> ".toList := by decide +kernel
private theorem lit_gt : " > ".toList = ' ' :: "> ".toList := by decide +kernel

/-- The only error `serialize` returns is `PduSizeExceeded`; it displays the length the PDU would have
had and the documented maximum, and has no underlying error. -/
theorem C45_serialize_error (k : PduKind) (p q : Pdu k.Body) (e : DISError) (prof : Profile)
    (buf buf' : Bytes) (h : p.serialize prof buf = .ok ((q, .error e), buf')) :
    ∃ n : Nat, 65535 < n ∧ (n : Int) = declaredOctets p ∧ e = .PduSizeExceeded n 8192 ∧
      e.display = "PDU size exceeds maximum allowed: " ++ toString n ++ " > 8192" ∧ e.source = none := by
  obtain ⟨_, ⟨n, rfl, hn⟩, _⟩ := C06_refused_atomically k p q e prof buf buf' h
  have := (C06_refused_iff k p prof buf).mp ⟨q, _, buf', h⟩
  refine ⟨n, by omega, hn, rfl, ?_, rfl⟩
  show "PDU size exceeds maximum allowed: " ++ toString n ++ " > " ++ toString 8192 = _
  rw [String.append_assoc (s₂ := " > "), show " > " ++ toString 8192 = " > 8192" by decide +kernel]

/-- A signal PDU with 70000 octets of data. -/
example : ∃ (p q : Pdu PduKind.Signal.Body) (e : DISError) (buf' : Bytes),
    p.serialize ⟨true⟩ [9] = .ok ((q, .error e), buf') ∧
    e.display = "PDU size exceeds maximum allowed: 70032 > 8192" := by
  obtain ⟨b, hb⟩ : ∃ b : SignalPdu, PduBody.fieldsLen b = 20 + 70000 := by
    let b : SignalPdu := { (PduBody.default : SignalPdu) with data := List.replicate 70000 0 }
    refine ⟨b, ?_⟩
    show SignalPdu.fieldsLen b = _
    have hd : field_len b.data = 70000 := by
      rw [field_len_bytes]; exact List.length_replicate
    have h0 : SignalPdu.fieldsLen b = 20 + field_len b.data := rfl
    rw [h0, hd]
  let p : Pdu PduKind.Signal.Body := ⟨exampleHeader, b⟩
  have hf : PduBody.fieldsLen p.body = 20 + 70000 := hb
  obtain ⟨q, e, buf', h⟩ := (C06_refused_iff .Signal p ⟨true⟩ [9]).mpr (by
    rw [declaredOctets_eq, hf]; decide)
  obtain ⟨n, _, hn, _, hd, _⟩ := C45_serialize_error .Signal p q e ⟨true⟩ [9] buf' h
  rw [declaredOctets_eq, hf] at hn
  have : n = 70032 := by omega
  subst this
  exact ⟨p, q, e, buf', h, hd.trans (by decide +kernel)⟩

/-- The only error `deserialize` returns is `InvalidHeader`; it displays the type the decoder expects and
the type found in octet 2, and has no underlying error. -/
theorem C45_deserialize_error (k : PduKind) (prof : Profile) (b rest : Bytes) (e : DISError)
    (h : k.decode prof b = .ok (.error e, rest)) :
    e.display = "Invalid PDU header: Expected PDU type " ++ pduTypeName k.typeCode ++ ", got " ++
        pduTypeName (b.getD 2 0).toNat ∧
      (∃ reason, e = .InvalidHeader reason none) ∧ (b.getD 2 0).toNat ≠ k.typeCode ∧
      12 ≤ b.length ∧ rest = b.drop 12 := by
  by_cases hl : b.length < 12
  · rw [show k.decode prof b = _ from C09_short_panics k prof b hl] at h; cases h
  · have hl' : 12 ≤ b.length := by omega
    by_cases ht : (b.getD 2 0).toNat = k.typeCode
    · exact absurd h (C09_own_type_accepted k prof b hl' ht e rest)
    · rw [show k.decode prof b = _ from C09_foreign_type_refused k prof b hl' ht] at h
      simp only [Except.ok.injEq, Prod.mk.injEq, Except.error.injEq] at h
      obtain ⟨rfl, rfl⟩ := h
      refine ⟨?_, ⟨_, rfl⟩, ht, hl', rfl⟩
      show "Invalid PDU header: " ++ ("Expected PDU type " ++ pduTypeName k.typeCode ++ ", got " ++ _) = _
      rw [← String.append_assoc, ← String.append_assoc, ← String.append_assoc,
        show "Invalid PDU header: " ++ "Expected PDU type " = "Invalid PDU header: Expected PDU type " by
          decide +kernel]

/-- The text of such an error identifies the decoder that was asked and the type that was found: two
refusals with the same text come from the same kind and from octets read as the same type. -/
theorem C45_refusal_text_identifies (k k' : PduKind) (prof prof' : Profile) (b b' rest rest' : Bytes)
    (e e' : DISError) (h : k.decode prof b = .ok (.error e, rest))
    (h' : k'.decode prof' b' = .ok (.error e', rest')) (htext : e.display = e'.display) :
    k = k' ∧ pduTypeName (b.getD 2 0).toNat = pduTypeName (b'.getD 2 0).toNat ∧
    (assignedPduType (b.getD 2 0).toNat → assignedPduType (b'.getD 2 0).toNat →
      b.getD 2 0 = b'.getD 2 0) := by
  rw [(C45_deserialize_error k prof b rest e h).1, (C45_deserialize_error k' prof' b' rest' e' h').1] at htext
  have ht := congrArg String.toList htext
  simp only [toList_lit_append, List.append_assoc] at ht
  have ht := List.append_cancel_left ht
  rw [lit_got, List.cons_append, List.cons_append] at ht
  obtain ⟨h1, h2⟩ := split_at_delimiter (pduTypeName_no_comma _) (pduTypeName_no_comma _) ht
  have h2 := List.append_cancel_left h2
  have hn := String.toList_injective h2
  have hlt : ∀ k : PduKind, k.typeCode ≤ 72 := by intro k; cases k <;> decide
  refine ⟨PduKind.typeCode_inj (pduTypeName_inj (hlt k) (hlt k') (String.toList_injective h1)), hn, ?_⟩
  intro ha ha'
  exact UInt8.toNat_inj.mp (pduTypeName_inj ha ha' hn)

/-- For instance: a Fire decoder given a Detonation header. -/
example : ∃ e, (PduKind.decode .Fire) ⟨true⟩ (7 :: 1 :: 3 :: List.replicate 20 0) =
      .ok (.error e, List.replicate 11 0) ∧
    e.display = "Invalid PDU header: Expected PDU type Fire, got Detonation" :=
  ⟨_, C09_foreign_type_refused .Fire ⟨true⟩ (7 :: 1 :: 3 :: List.replicate 20 0) (by decide) (by decide),
    by decide +kernel⟩

/-- Each constructor keeps what it is given: the text is the documented phrase with the arguments in
place, and the underlying error is the one supplied. -/
theorem C45_constructors (reason field value : String) (src : Option ForeignError) (io : ForeignError)
    (m n : Nat) :
    (DISError.invalid_header reason src).display = "Invalid PDU header: " ++ reason ∧
    (DISError.invalid_header reason src).source = src ∧
    (DISError.deserialization_error reason src).display = "PDU deserialization error: " ++ reason ∧
    (DISError.deserialization_error reason src).source = src ∧
    (DISError.serialization_error reason src).display = "PDU serialization error: " ++ reason ∧
    (DISError.serialization_error reason src).source = src ∧
    (DISError.invalid_field field value reason).display =
      "Invalid field value: " ++ field ++ " = " ++ value ++ ", " ++ reason ∧
    (DISError.invalid_field field value reason).source = none ∧
    (DISError.buffer_underflow m n).display =
      "Buffer underflow: tried to read " ++ toString m ++ " bytes, but only " ++ toString n ++
        " bytes remain" ∧
    (DISError.buffer_underflow m n).source = none ∧
    (DISError.pdu_size_exceeded m n).display =
      "PDU size exceeds maximum allowed: " ++ toString m ++ " > " ++ toString n ∧
    (DISError.pdu_size_exceeded m n).source = none ∧
    (DISError.of_io_error io).display = "Network error: " ++ io.text ∧
    (DISError.of_io_error io).source = some io :=
  ⟨rfl, rfl, rfl, rfl, rfl, rfl, rfl, rfl, rfl, rfl, rfl, rfl, rfl, rfl⟩

/-- The two variants that carry states or versions. -/
theorem C45_state_and_version_texts :
    (∀ s t : PduState, (DISError.InvalidStateTransition s t).display =
      "Invalid PDU state transition: " ++ s.debug ++ " -> " ++ t.debug) ∧
    [PduState.Uninitialized, .HeaderValid, .BodyValid, .Complete].map PduState.debug =
      ["Uninitialized", "HeaderValid", "BodyValid", "Complete"] ∧
    (∀ v w : ProtocolVersion, (DISError.ProtocolVersionMismatch v w).display =
      "Protocol version mismatch: expected " ++ v.debug ++ ", got " ++ w.debug) ∧
    (List.range 8).map (fun c => (ProtocolVersion.spec.ofCode c).debug) =
      ["Other", "DIS_PDUv1", "IEEE1278_1993", "DIS_PDUv2_Third_Draft", "DIS_PDUv2_Fourth_Draft_Revised",
       "IEEE1278_1_1995", "IEEE1278_1A_1998", "IEEE1278_1_2012"] :=
  ⟨fun _ _ => rfl, rfl, fun _ _ => rfl, by decide +kernel⟩

/-- The first thirteen characters tell the variants apart. -/
private def head : DISError → String
      | .InvalidHeader .. => "Invalid PDU h" | .DeserializationError .. => "PDU deseriali"
      | .SerializationError .. => "PDU serializa" | .InvalidStateTransition .. => "Invalid PDU s"
      | .ProtocolVersionMismatch .. => "Protocol vers" | .InvalidFieldValue .. => "Invalid field"
      | .BufferUnderflow .. => "Buffer underf" | .NetworkError .. => "Network error"
      | .PduSizeExceeded .. => "PDU size exce"
private theorem head_of {s t : String} (x : String)
    (h : 13 ≤ s.toList.length ∧ s.toList.take 13 = t.toList) : (s ++ x).toList.take 13 = t.toList := by
  rw [toList_lit_append, List.take_append_of_le_length h.1, h.2]
private theorem ha (s a b c : String) : s ++ a ++ b ++ c = s ++ (a ++ (b ++ c)) := by simp only [String.append_assoc]
private theorem hb (s a b c d : String) : s ++ a ++ b ++ c ++ d = s ++ (a ++ (b ++ (c ++ d))) := by simp only [String.append_assoc]
private theorem hc (s a b c d e : String) : s ++ a ++ b ++ c ++ d ++ e = s ++ (a ++ (b ++ (c ++ (d ++ e)))) := by simp only [String.append_assoc]
private theorem heads (e : DISError) : e.display.toList.take 13 = (head e).toList := by
  cases e with
  | InvalidHeader r s => unfold DISError.display head; dsimp only; exact head_of _ (by decide +kernel)
  | DeserializationError r s => unfold DISError.display head; dsimp only; exact head_of _ (by decide +kernel)
  | SerializationError r s => unfold DISError.display head; dsimp only; exact head_of _ (by decide +kernel)
  | NetworkError r => unfold DISError.display head; dsimp only; exact head_of _ (by decide +kernel)
  | InvalidStateTransition r s => unfold DISError.display head; dsimp only; rw [ha]; exact head_of _ (by decide +kernel)
  | ProtocolVersionMismatch r s => unfold DISError.display head; dsimp only; rw [ha]; exact head_of _ (by decide +kernel)
  | PduSizeExceeded r s => unfold DISError.display head; dsimp only; rw [ha]; exact head_of _ (by decide +kernel)
  | BufferUnderflow r s => unfold DISError.display head; dsimp only; rw [hb]; exact head_of _ (by decide +kernel)
  | InvalidFieldValue r s t => unfold DISError.display head; dsimp only; rw [hc]; exact head_of _ (by decide +kernel)

/-- The text together with the underlying error determines the error, field-value errors aside: nothing
an error carries is lost in reporting it. -/
theorem C45_text_determines_error (e e' : DISError)
    (hf : ∀ f v r, e ≠ .InvalidFieldValue f v r) (ht : e.display = e'.display)
    (hs : e.source = e'.source) : e = e' := by
  have hh := congrArg (fun s => s.toList.take 13) ht
  simp only [heads, String.toList_inj] at hh
  replace ht := congrArg String.toList ht
  cases e with
  | InvalidFieldValue f v r => exact absurd rfl (hf f v r)
  | InvalidHeader r s =>
    cases e' with
    | InvalidHeader r' s' =>
      unfold DISError.display at ht
      dsimp only at ht
      rw [toList_lit_append, toList_lit_append] at ht
      rw [String.toList_injective (List.append_cancel_left ht), show s = s' from hs]
    | _ => simp [head] at hh
  | DeserializationError r s =>
    cases e' with
    | DeserializationError r' s' =>
      unfold DISError.display at ht
      dsimp only at ht
      rw [toList_lit_append, toList_lit_append] at ht
      rw [String.toList_injective (List.append_cancel_left ht), show s = s' from hs]
    | _ => simp [head] at hh
  | SerializationError r s =>
    cases e' with
    | SerializationError r' s' =>
      unfold DISError.display at ht
      dsimp only at ht
      rw [toList_lit_append, toList_lit_append] at ht
      rw [String.toList_injective (List.append_cancel_left ht), show s = s' from hs]
    | _ => simp [head] at hh
  | NetworkError io =>
    cases e' with
    | NetworkError io' =>
      simp only [DISError.source, Option.some.injEq] at hs
      rw [hs]
    | _ => simp [head] at hh
  | InvalidStateTransition a n =>
    cases e' with
    | InvalidStateTransition a' n' =>
      unfold DISError.display at ht
      dsimp only at ht
      simp only [toList_lit_append, List.append_assoc] at ht
      replace ht := List.append_cancel_left ht
      rw [lit_arrow, List.cons_append, List.cons_append] at ht
      obtain ⟨h1, h2⟩ := split_at_delimiter (stateName_no_space _) (stateName_no_space _) ht
      replace h2 := List.append_cancel_left h2
      rw [stateName_inj (String.toList_injective h1), stateName_inj (String.toList_injective h2)]
    | _ => simp [head] at hh
  | ProtocolVersionMismatch a n =>
    cases e' with
    | ProtocolVersionMismatch a' n' =>
      unfold DISError.display at ht
      dsimp only at ht
      simp only [toList_lit_append, List.append_assoc] at ht
      replace ht := List.append_cancel_left ht
      rw [lit_got, List.cons_append, List.cons_append] at ht
      obtain ⟨h1, h2⟩ := split_at_delimiter (versionName_no_comma _) (versionName_no_comma _) ht
      replace h2 := List.append_cancel_left h2
      rw [versionName_inj (String.toList_injective h1), versionName_inj (String.toList_injective h2)]
    | _ => simp [head] at hh
  | BufferUnderflow a n =>
    cases e' with
    | BufferUnderflow a' n' =>
      unfold DISError.display at ht
      dsimp only at ht
      simp only [toList_lit_append, List.append_assoc] at ht
      replace ht := List.append_cancel_left ht
      rw [lit_bytes, lit_remain, List.cons_append, List.cons_append] at ht
      obtain ⟨h1, h2⟩ := split_at_delimiter (digits_ne (by decide)) (digits_ne (by decide)) ht
      replace h2 := List.append_cancel_left h2
      obtain ⟨h3, _⟩ := split_at_delimiter (digits_ne (by decide)) (digits_ne (by decide)) h2
      rw [digits_inj h1, digits_inj h3]
    | _ => simp [head] at hh
  | PduSizeExceeded a n =>
    cases e' with
    | PduSizeExceeded a' n' =>
      unfold DISError.display at ht
      dsimp only at ht
      simp only [toList_lit_append, List.append_assoc] at ht
      replace ht := List.append_cancel_left ht
      rw [lit_gt, List.cons_append, List.cons_append] at ht
      obtain ⟨h1, h2⟩ := split_at_delimiter (digits_ne (by decide)) (digits_ne (by decide)) ht
      replace h2 := List.append_cancel_left h2
      rw [digits_inj h1, digits_inj h2]
    | _ => simp [head] at hh

/-- Field-value errors are the exception: two different ones can read the same. -/
theorem C45_field_text_ambiguous :
    DISError.invalid_field "a" "b = c" "d" ≠ DISError.invalid_field "a = b" "c" "d" ∧
    (DISError.invalid_field "a" "b = c" "d").display = (DISError.invalid_field "a = b" "c" "d").display :=
  ⟨by decide, by decide +kernel⟩

/-- The underlying error is never part of the text. -/
theorem C45_source_not_in_text (r : String) (s s' : Option ForeignError) :
    (DISError.invalid_header r s).display = (DISError.invalid_header r s').display ∧
    (DISError.deserialization_error r s).display = (DISError.deserialization_error r s').display ∧
    (DISError.serialization_error r s).display = (DISError.serialization_error r s').display :=
  ⟨rfl, rfl, rfl⟩

example := C45_deserialize_error .Fire ⟨true⟩ (7 :: 1 :: 3 :: List.replicate 20 0) _ _
  (C09_foreign_type_refused .Fire ⟨true⟩ (7 :: 1 :: 3 :: List.replicate 20 0) (by decide) (by decide))
example : ∀ f v r, DISError.PduSizeExceeded 70032 8192 ≠ .InvalidFieldValue f v r := fun _ _ _ h => nomatch h

end Dis
