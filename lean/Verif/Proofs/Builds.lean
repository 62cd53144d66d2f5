import Verif.Model.PduKind
/-
Builds with and without overflow checks: closure of their agreement under the combinators in which the model is written.
As in Proofs/Steps, instance search proves it for a whole function from its text.
-/
namespace Dis

/-- The two builds do the same on every buffer, step by step; unless, if `exact` is not required, the build with overflow
checks panics for an overflow. -/
class Builds {α : Type} (exact : Bool) (g : M α) : Prop where
  same : ∀ b, (exact = false ∧ g ⟨true⟩ b = .error .arithmeticOverflow) ∨
    (g ⟨true⟩ b = g ⟨false⟩ b ∧ g.log ⟨true⟩ b = g.log ⟨false⟩ b)

namespace Builds
variable {α β : Type} {exact : Bool}

theorem of_eq {g : M α} (h : ∀ b, g ⟨true⟩ b = g ⟨false⟩ b) (h' : ∀ b, g.log ⟨true⟩ b = g.log ⟨false⟩ b) : Builds exact g :=
  ⟨fun b => .inr ⟨h b, h' b⟩⟩

instance (a : α) : Builds exact (Pure.pure a : M α) := of_eq (fun _ => rfl) fun _ => rfl
instance (e : Panic) : Builds exact (M.panic e : M α) := of_eq (fun _ => rfl) fun _ => rfl
instance (n : Nat) : Builds exact (M.reserve n) := of_eq (fun _ => rfl) fun _ => rfl
instance (n : Nat) : Builds exact (getBytes n) := of_eq (fun _ => rfl) fun _ => rfl
instance (w : Bytes) : Builds exact (putBytes w) := of_eq (fun _ => rfl) fun _ => rfl
instance : Builds exact remaining := of_eq (fun _ => rfl) fun _ => rfl
instance : Builds exact getRest := of_eq (fun _ => rfl) fun _ => rfl
instance (x y : UInt16) : Builds false (mulU16 x y) := ⟨fun b => by
  by_cases h : 65536 ≤ x.toNat * y.toNat
  · exact .inl ⟨rfl, if_pos ⟨rfl, h⟩⟩
  · refine .inr ⟨?_, rfl⟩
    simp only [mulU16]
    rw [if_neg (fun hn => h hn.2), if_neg (fun hn => h hn.2)]⟩

instance bind (g : M α) (f : α → M β) [h : Builds exact g] [h' : ∀ a, Builds exact (f a)] : Builds exact (g >>= f) where
  same b := by
    rcases h.same b with ⟨he, hg⟩ | ⟨hr, hl⟩
    · refine .inl ⟨he, ?_⟩
      rw [M.bind_run, hg]
    · rw [M.bind_run, M.bind_run, M.bind_log, M.bind_log, hr, hl]
      cases hg : g.run ⟨false⟩ b with
      | error e => exact .inr ⟨rfl, rfl⟩
      | ok r =>
        rcases (h' r.1).same r.2 with ⟨he, hf⟩ | ⟨hr', hl'⟩
        · exact .inl ⟨he, hf⟩
        · refine .inr ⟨hr', ?_⟩
          show _ ++ (f r.1).log ⟨true⟩ r.2 = _ ++ (f r.1).log ⟨false⟩ r.2
          rw [hl']

instance (c : Prop) [Decidable c] (g g' : M α) [Builds exact g] [Builds exact g'] :
    Builds exact (if c then g else g') := by
  split <;> infer_instance

instance many (g : Get α) [Builds exact g] : (n : Nat) → Builds exact (getN g n)
  | 0 => inferInstanceAs (Builds exact (Pure.pure []))
  | m + 1 =>
    have := many g m
    inferInstanceAs (Builds exact (g >>= fun x => getN g m >>= fun xs => Pure.pure (x :: xs)))

instance arr (g : Get α) [Builds exact g] : (n : Nat) → Builds exact (getArr g n)
  | 0 => inferInstanceAs (Builds exact (Pure.pure (⟨[], rfl⟩ : Arr α 0)))
  | m + 1 => by
    have := arr g m
    unfold getArr
    infer_instance

instance each (put : α → Put) [∀ x, Builds exact (put x)] : (xs : List α) → Builds exact (putEach put xs)
  | [] => inferInstanceAs (Builds exact (Pure.pure ()))
  | x :: xs =>
    have := each put xs
    inferInstanceAs (Builds exact (put x >>= fun _ => putEach put xs))

/-- Splits a sequence of steps. -/
macro "builds" : tactic =>
  `(tactic| (repeat' refine @Builds.bind _ _ _ _ _ ?_ fun _ => ?_) <;> infer_instance)

end Builds
end Dis
