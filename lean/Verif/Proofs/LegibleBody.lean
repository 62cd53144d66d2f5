import Verif.Proofs.LegibleRecords
import Verif.Model.PrintedPdus
/- Reading printed texts back: PDUs. -/
namespace Dis

/-- A PDU structure whose printed fields can be read back. -/
class LegibleBody (B : Type) [PduDebug B] [Calm B] : Prop where
  named : nameLike (PduDebug.name B) = true
  line : ∀ {σ : Fmt}, σ.Lawful → σ.alternate = false → ∀ x : B, ∀ f ∈ PduDebug.fields σ x, nameLike f.1 = true ∧ 10 ∉ f.2
  same : ∀ {σ : Fmt}, σ.Lawful → ∀ x : B, PduDebug.fields σ (calm x) = PduDebug.fields σ x
  reads : ∀ {σ : Fmt}, σ.Lawful → ∀ {x y : B} {r r' : Text},
    fieldsText σ (PduDebug.fields σ x) ++ r = fieldsText σ (PduDebug.fields σ y) ++ r' → calm x = calm y ∧ r = r'

instance {B : Type} [PduDebug B] [Calm B] [LegibleBody B] : Legible (Pdu B) where
  starts _ _ := structText_starts LegibleBody.named _
  line hσ ha p := structText_line ha LegibleBody.named <|
    field_line (by decide +kernel) (Legible.line hσ ha p.header) (LegibleBody.line hσ ha p.body)
  same {σ} hσ p := by
    show structText σ (PduDebug.name B) (("header", text σ (calm p.header)) :: PduDebug.fields σ (calm p.body)) =
      structText σ (PduDebug.name B) (("header", text σ p.header) :: PduDebug.fields σ p.body)
    rw [Legible.same hσ, LegibleBody.same hσ]
  reads {σ} hσ {p q r r'} _ _ h := by
    have h : structText σ (PduDebug.name B) (("header", text σ p.header) :: PduDebug.fields σ p.body) ++ r =
      structText σ (PduDebug.name B) (("header", text σ q.header) :: PduDebug.fields σ q.body) ++ r' := h
    obtain ⟨h1, h⟩ := read_first hσ h
    obtain ⟨h2, h⟩ := LegibleBody.reads hσ h
    refine ⟨?_, h⟩
    show Pdu.mk (calm p.header) (calm p.body) = Pdu.mk (calm q.header) (calm q.body)
    rw [h1, h2]

/-- Types none of whose values has anything to even out. -/
class Plain (α : Type) [Calm α] : Prop where
  eq : ∀ x : α, calm x = x

instance : Plain UInt8 := ⟨fun _ => rfl⟩
instance : Plain UInt16 := ⟨fun _ => rfl⟩
instance : Plain UInt32 := ⟨fun _ => rfl⟩
instance : Plain UInt64 := ⟨fun _ => rfl⟩
instance : Plain Int8 := ⟨fun _ => rfl⟩
instance : Plain Int16 := ⟨fun _ => rfl⟩
instance : Plain Int32 := ⟨fun _ => rfl⟩
instance : Plain String := ⟨fun _ => rfl⟩
instance {s : EnumSpec} : Plain (EnumVal s) := ⟨fun _ => rfl⟩
instance : Plain FrozenBehavior := ⟨fun _ => rfl⟩
instance : Plain ObjectStateAppearanceGeneral := ⟨fun _ => rfl⟩
theorem Plain.map {α : Type} [Calm α] [Plain α] (xs : List α) : xs.map calm = xs :=
  (List.map_congr_left fun x _ => Plain.eq x).trans (List.map_id' xs)
instance {α : Type} [Calm α] [Plain α] : Plain (List α) := ⟨Plain.map⟩
instance {α : Type} {n : Nat} [Calm α] [Plain α] : Plain (Arr α n) := ⟨fun x => Arr.ext (Plain.map x.toList)⟩
instance {α : Type} [Calm α] [Plain α] : Plain (Option α) := ⟨fun x => by
  cases x with
  | none => rfl
  | some x => exact congrArg some (Plain.eq x)⟩

end Dis
