import Verif.Model.DefinePdu
import Verif.Proofs.PduGeneric
/-
Facts about `define_pdu!` as a function of the field list.
-/
namespace Dis

theorem M.bind_unit (m : Put) : (m >>= fun _ => Pure.pure ()) = m := by
  apply M.ext
  · intro prof b
    rw [M.bind_run]
    cases m.run prof b with
    | error e => rfl
    | ok r => rfl
  · intro prof b
    rw [M.bind_log]
    cases m.run prof b with
    | error e => exact List.append_nil _
    | ok r => exact List.append_nil _

theorem M.bind_pure' {α : Type} (m : M α) : (m >>= fun x => Pure.pure x) = m := by
  apply M.ext
  · intro prof b
    rw [M.bind_run]
    cases m.run prof b with
    | error e => rfl
    | ok r => rfl
  · intro prof b
    rw [M.bind_log]
    cases m.run prof b with
    | error e => exact List.append_nil _
    | ok r => exact List.append_nil _

theorem M.bind_assoc {α β γ : Type} (m : M α) (f : α → M β) (g : β → M γ) :
    ((m >>= f) >>= g) = (m >>= fun x => f x >>= g) := by
  apply M.ext
  · intro prof b
    simp only [M.bind_run]
    cases m.run prof b with
    | error e => rfl
    | ok r => rfl
  · intro prof b
    simp only [M.bind_log, M.bind_run]
    cases m.run prof b with
    | error e => simp only [List.append_nil]
    | ok r =>
      dsimp only
      cases (f r.1).run prof r.2 with
      | error e => simp only [List.append_nil]
      | ok r' => simp only [List.append_assoc]

theorem M.pure_bind {α β : Type} (a : α) (f : α → M β) : ((Pure.pure a : M α) >>= f) = f a := by
  apply M.ext
  · intro prof b; rfl
  · intro prof b; rw [M.bind_log]; rfl

namespace Fields

/-- `ser`, without the final `pure ()`. -/
def ser1 : (fs : List FieldDef) → Fields fs → Put
  | [], _ => pure ()
  | [f], x => f.type.ser x.1
  | f :: g :: fs, x => do
    f.type.ser x.1
    ser1 (g :: fs) x.2

theorem ser_eq : (fs : List FieldDef) → (x : Fields fs) → ser fs x = ser1 fs x
  | [], _ => rfl
  | [f], x => M.bind_unit (f.type.ser x.1)
  | f :: g :: fs, x => by
    show (f.type.ser x.1 >>= fun _ => ser (g :: fs) x.2) = (f.type.ser x.1 >>= fun _ => ser1 (g :: fs) x.2)
    rw [ser_eq (g :: fs) x.2]

/-- `len`, as a sum from the left. -/
def lenFrom : (fs : List FieldDef) → Fields fs → Nat → Nat
  | [], _, n => n
  | f :: fs, x, n => lenFrom fs x.2 (n + f.type.len x.1)
def len1 : (fs : List FieldDef) → Fields fs → Nat
  | [], _ => 0
  | f :: fs, x => lenFrom fs x.2 (f.type.len x.1)

theorem lenFrom_eq : (fs : List FieldDef) → (x : Fields fs) → (n : Nat) → lenFrom fs x n = n + len fs x
  | [], _, _ => rfl
  | f :: fs, x, n => by
    show lenFrom fs x.2 (n + f.type.len x.1) = n + (f.type.len x.1 + len fs x.2)
    rw [lenFrom_eq fs x.2, Nat.add_assoc]

theorem len_eq : (fs : List FieldDef) → (x : Fields fs) → len fs x = len1 fs x
  | [], _ => rfl
  | f :: fs, x => (lenFrom_eq fs x.2 _).symm

/-- `de`, with what is done with the fields at its end. -/
def deThen {α : Type} : (fs : List FieldDef) → List UInt8 → (Fields fs → Get α) → Get α
  | [], _, k => k ()
  | .byte :: fs, seen, k => do
    let x ← (deserialize_field : Get UInt8)
    deThen fs (seen ++ [x]) fun xs => k (x, xs)
  | .plain _ d :: fs, seen, k => do
    let x ← d
    deThen fs (seen ++ [0]) fun xs => k (x, xs)
  | .counted _ d ref :: fs, seen, k => do
    let x ← d (seen.getD ref 0).toNat
    deThen fs (seen ++ [0]) fun xs => k (x, xs)

theorem de_then {α : Type} : (fs : List FieldDef) → (seen : List UInt8) → (k : Fields fs → Get α) →
    (de fs seen >>= k) = deThen fs seen k
  | [], _, k => M.pure_bind () k
  | .byte :: fs, seen, k => by
    unfold de deThen
    rw [M.bind_assoc]
    congr 1; funext x
    rw [M.bind_assoc]
    simp only [M.pure_bind]
    exact de_then fs _ _
  | .plain _ d :: fs, seen, k => by
    unfold de deThen
    rw [M.bind_assoc]
    congr 1; funext x
    rw [M.bind_assoc]
    simp only [M.pure_bind]
    exact de_then fs _ _
  | .counted _ d ref :: fs, seen, k => by
    unfold de deThen
    rw [M.bind_assoc]
    congr 1; funext x
    rw [M.bind_assoc]
    simp only [M.pure_bind]
    exact de_then fs _ _

theorem de_eq {α : Type} (fs : List FieldDef) (seen : List UInt8) (f : Fields fs → α) :
    (f <$> de fs seen) = deThen fs seen fun x => pure (f x) :=
  de_then fs seen fun x => pure (f x)

end Fields

/-- `B` with its code is what the macro makes of `d`. -/
structure AsDefined (d : Definition) {B : Type} [PduBody B] (of : d.Body → B) (to : B → d.Body) : Prop where
  of_to : ∀ x, of (to x) = x
  to_of : ∀ y, to (of y) = y
  type : d.type = PduBody.pduType B
  family : d.family = PduBody.family B
  default : of PduBody.default = PduBody.default
  len : ∀ y, Fields.len d.fields y = PduBody.fieldsLen (of y)
  prep : ∀ y, of (PduBody.prep y) = PduBody.prep (of y)
  ser : ∀ y, Fields.ser d.fields y = PduBody.serializeBody (of y)
  de : (of <$> (PduBody.deserializeBody : Get d.Body)) = PduBody.deserializeBody

end Dis
