import Verif.Properties.Printing
import Verif.Spec.PrintedErrors
/-
C45, continued: what `{:?}` and `{:#?}` print for an error tells which error it is.  (`unwrap` and `expect` print errors
in this form.)
-/
namespace Dis

theorem tupleText_inj {σ : Fmt} {name : String} {t t' : Text} (h : tupleText σ name t = tupleText σ name t') : t = t' := by
  unfold tupleText at h
  split at h
  · exact (padded_inj rfl (List.append_cancel_left (List.append_cancel_left h))).1
  · exact List.append_cancel_right (List.append_cancel_left (List.append_cancel_left h))

theorem last_field {σ : Fmt} {f : String} {t t' : Text} (h : fieldsText σ [(f, t)] = fieldsText σ [(f, t')]) : t = t' := by
  cases ha : σ.alternate with
  | true =>
    rw [fieldsText_indented ha, fieldsText_indented ha] at h
    exact List.append_cancel_left (List.append_cancel_left (padded_inj rfl h).1)
  | false =>
    rw [fieldsText_flat ha, fieldsText_flat ha] at h
    have h := List.append_cancel_left (List.append_cancel_left (List.append_cancel_left h))
    exact List.append_cancel_right h

theorem foreign_tells {σ : Fmt} {o o' : Option ForeignError} (h : text σ o = text σ o') :
    o.map σ.foreign = o'.map σ.foreign := by
  have ne : ∀ e : ForeignError, text σ (some e) ≠ text σ (none : Option ForeignError) := fun e h => by
    have h : tupleText σ "Some" (σ.foreign e) = strBytes "None" := h
    obtain ⟨v, hv⟩ := tupleText_starts some_text σ (σ.foreign e)
    rw [hv, none_text] at h
    exact absurd (List.cons.inj h).1 (by decide)
  cases o with
  | none =>
    cases o' with
    | none => rfl
    | some e => exact absurd h.symm (ne e)
  | some e =>
    cases o' with
    | none => exact absurd h (ne e)
    | some e' => exact congrArg some (tupleText_inj h)

/-- the name that is printed first -/
def DISError.variantName : DISError → String
  | .InvalidHeader .. => "InvalidHeader"
  | .DeserializationError .. => "DeserializationError"
  | .SerializationError .. => "SerializationError"
  | .InvalidStateTransition .. => "InvalidStateTransition"
  | .ProtocolVersionMismatch .. => "ProtocolVersionMismatch"
  | .InvalidFieldValue .. => "InvalidFieldValue"
  | .BufferUnderflow .. => "BufferUnderflow"
  | .NetworkError .. => "NetworkError"
  | .PduSizeExceeded .. => "PduSizeExceeded"

theorem structText_head {σ : Fmt} (n : String) (g : String × Text) (gs : List (String × Text)) :
    ∃ u, structText σ n (g :: gs) = strBytes n ++ (32 :: u) := by
  cases ha : σ.alternate with
  | true => rw [structText_indented ha, open_brace_line]; exact ⟨_, rfl⟩
  | false => rw [structText_flat ha, open_brace]; exact ⟨_, rfl⟩
theorem tupleText_head {σ : Fmt} (n : String) (t : Text) : ∃ u, tupleText σ n t = strBytes n ++ (40 :: u) := by
  unfold tupleText
  split
  · rw [open_paren_line]; exact ⟨_, rfl⟩
  · rw [open_paren]; exact ⟨_, rfl⟩

theorem DISError.text_head (σ : Fmt) (e : DISError) :
    ∃ c u, text σ e = strBytes e.variantName ++ (c :: u) ∧ nameOctet c = false := by
  have s : ∀ n g gs, ∃ c u, structText σ n (g :: gs) = strBytes n ++ (c :: u) ∧ nameOctet c = false := fun n g gs => by
    obtain ⟨u, hu⟩ := structText_head (σ := σ) n g gs
    exact ⟨32, u, hu, by decide⟩
  cases e
  case NetworkError e =>
    obtain ⟨u, hu⟩ := tupleText_head (σ := σ) "NetworkError" (text σ e)
    exact ⟨40, u, hu, by decide⟩
  all_goals exact s _ _ _

theorem DISError.variantName_octets (e : DISError) : ∀ b ∈ strBytes e.variantName, nameOctet b = true := by
  cases e <;> (simp only [DISError.variantName]; exact List.all_eq_true.mp (by decide +kernel))

theorem DISError.text_variant {σ : Fmt} {e e' : DISError} (h : text σ e = text σ e') :
    strBytes e.variantName = strBytes e'.variantName := by
  obtain ⟨c, u, h1, hc⟩ := e.text_head σ
  obtain ⟨c', u', h2, hc'⟩ := e'.text_head σ
  rw [h1, h2] at h
  exact (cut (p := fun b => !nameOctet b) (fun b hb => by simp [e.variantName_octets b hb])
    (fun b hb => by simp [e'.variantName_octets b hb]) (.inr ⟨c, u, rfl, by simp [hc]⟩)
    (.inr ⟨c', u', rfl, by simp [hc']⟩) h).1

/-- Two errors print the same text exactly when they are of the same variant with the same values, and the errors of
other crates that they carry, if any, print the same. -/
theorem C45_debug (σ : Fmt) (hσ : σ.Lawful) (e e' : DISError) :
    text σ e = text σ e' ↔ e.bare = e'.bare ∧ e.source.map σ.foreign = e'.source.map σ.foreign := by
  have ends : ∀ {t t' : Text}, t = t' → t ++ [] = t' ++ [] := fun e => by rw [e]
  have unend : ∀ {t t' : Text}, t ++ [] = t' ++ [] → t = t' := fun h => List.append_cancel_right h
  constructor
  · intro h
    have hv := DISError.text_variant h
    cases e <;> cases e'
    case InvalidHeader.InvalidHeader m s m' s' =>
      obtain ⟨h1, h⟩ := read_first hσ (x := m) (y := m') (ends h)
      have h1 : m = m' := h1
      exact ⟨by rw [h1]; rfl, foreign_tells (last_field (unend h))⟩
    case DeserializationError.DeserializationError m s m' s' =>
      obtain ⟨h1, h⟩ := read_first hσ (x := m) (y := m') (ends h)
      have h1 : m = m' := h1
      exact ⟨by rw [h1]; rfl, foreign_tells (last_field (unend h))⟩
    case SerializationError.SerializationError m s m' s' =>
      obtain ⟨h1, h⟩ := read_first hσ (x := m) (y := m') (ends h)
      have h1 : m = m' := h1
      exact ⟨by rw [h1]; rfl, foreign_tells (last_field (unend h))⟩
    case InvalidStateTransition.InvalidStateTransition a b a' b' =>
      obtain ⟨h1, h⟩ := read_first hσ (x := a) (y := a') (ends h)
      obtain ⟨h2, h⟩ := read_next hσ (x := b) (y := b') h
      have h1 : a = a' := h1
      have h2 : b = b' := h2
      exact ⟨by rw [h1, h2], rfl⟩
    case ProtocolVersionMismatch.ProtocolVersionMismatch a b a' b' =>
      obtain ⟨h1, h⟩ := read_first hσ (x := a) (y := a') (ends h)
      obtain ⟨h2, h⟩ := read_next hσ (x := b) (y := b') h
      have h1 : a = a' := h1
      have h2 : b = b' := h2
      exact ⟨by rw [h1, h2], rfl⟩
    case InvalidFieldValue.InvalidFieldValue a b c a' b' c' =>
      obtain ⟨h1, h⟩ := read_first hσ (x := a) (y := a') (ends h)
      obtain ⟨h2, h⟩ := read_next hσ (x := b) (y := b') h
      obtain ⟨h3, h⟩ := read_next hσ (x := c) (y := c') h
      have h1 : a = a' := h1
      have h2 : b = b' := h2
      have h3 : c = c' := h3
      exact ⟨by rw [h1, h2, h3], rfl⟩
    case BufferUnderflow.BufferUnderflow a b a' b' =>
      obtain ⟨h1, h⟩ := read_first hσ (x := a) (y := a') (ends h)
      obtain ⟨h2, h⟩ := read_next hσ (x := b) (y := b') h
      have h1 : a = a' := h1
      have h2 : b = b' := h2
      exact ⟨by rw [h1, h2], rfl⟩
    case NetworkError.NetworkError a a' => exact ⟨rfl, congrArg some (tupleText_inj h)⟩
    case PduSizeExceeded.PduSizeExceeded a b a' b' =>
      obtain ⟨h1, h⟩ := read_first hσ (x := a) (y := a') (ends h)
      obtain ⟨h2, h⟩ := read_next hσ (x := b) (y := b') h
      have h1 : a = a' := h1
      have h2 : b = b' := h2
      exact ⟨by rw [h1, h2], rfl⟩
    all_goals (simp only [DISError.variantName] at hv; exact absurd hv (by decide +kernel))
  · intro ⟨h, hs⟩
    have shows : ∀ {o o' : Option ForeignError}, o.map σ.foreign = o'.map σ.foreign → text σ o = text σ o' := by
      intro o o' h
      cases o <;> cases o'
      · rfl
      · exact nomatch h
      · exact nomatch h
      · exact congrArg (tupleText σ "Some") (Option.some.inj h)
    cases e <;> cases e' <;> simp only [DISError.bare, reduceCtorEq] at h <;> try injection h
    case InvalidHeader.InvalidHeader m s m' s' h1 _ =>
      show structText σ "InvalidHeader" [("reason", text σ m), ("source", text σ s)] =
        structText σ "InvalidHeader" [("reason", text σ m'), ("source", text σ s')]
      rw [h1, shows (o := s) (o' := s') hs]
    case DeserializationError.DeserializationError m s m' s' h1 _ =>
      show structText σ "DeserializationError" [("msg", text σ m), ("source", text σ s)] =
        structText σ "DeserializationError" [("msg", text σ m'), ("source", text σ s')]
      rw [h1, shows (o := s) (o' := s') hs]
    case SerializationError.SerializationError m s m' s' h1 _ =>
      show structText σ "SerializationError" [("msg", text σ m), ("source", text σ s)] =
        structText σ "SerializationError" [("msg", text σ m'), ("source", text σ s')]
      rw [h1, shows (o := s) (o' := s') hs]
    case InvalidStateTransition.InvalidStateTransition h1 h2 => rw [h1, h2]
    case ProtocolVersionMismatch.ProtocolVersionMismatch h1 h2 => rw [h1, h2]
    case InvalidFieldValue.InvalidFieldValue h1 h2 h3 => rw [h1, h2, h3]
    case BufferUnderflow.BufferUnderflow h1 h2 => rw [h1, h2]
    case NetworkError.NetworkError => exact congrArg (tupleText σ "NetworkError") (Option.some.inj hs)
    case PduSizeExceeded.PduSizeExceeded h1 h2 => rw [h1, h2]

/-! ### Concrete cases -/

example : text (sampleFmt false) (DISError.BufferUnderflow 12 3) =
    strBytes "BufferUnderflow { attempted: 12, available: 3 }" := by decide +kernel
example : text (sampleFmt true) (DISError.BufferUnderflow 12 3) =
    strBytes "BufferUnderflow {\n    attempted: 12,\n    available: 3,\n}" := by decide +kernel
/-- the underlying error is shown, too, but two that print the same are not told apart -/
example : text (sampleFmt false) (DISError.NetworkError ⟨"Kind(TimedOut)"⟩) = strBytes "NetworkError(Kind(TimedOut))" ∧
    text (sampleFmt true) (DISError.NetworkError ⟨"Kind(TimedOut)"⟩) = strBytes "NetworkError(\n    Kind(TimedOut),\n)" := by
  decide +kernel

end Dis
