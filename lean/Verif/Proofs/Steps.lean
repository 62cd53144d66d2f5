import Verif.Spec.Steps
import Verif.Model.PduKind
/-
The steps of decoders and encoders: closure of the relevant facts under the combinators in which the model is written.
The classes range over computations, so that instance search proves the fact for a whole decoder from its text.
-/
namespace Dis

/-! ### Logs -/

/-- A step of a decoder: a read of 1, 2, 4 or 8 octets, or a reservation. -/
def Event.OfDecoder : Event → Prop
  | .took n => n = 1 ∨ n = 2 ∨ n = 4 ∨ n = 8
  | .reserve _ => True
  | .put _ => False

/-- A step of an encoder. -/
def Event.OfEncoder : Event → Prop
  | .put _ => True
  | _ => False

theorem octetsTaken_append (l l' : List Event) : octetsTaken (l ++ l') = octetsTaken l + octetsTaken l' := by
  induction l with
  | nil => simp [octetsTaken]
  | cons e l ih => cases e <;> simp only [List.cons_append, octetsTaken, ih] <;> omega

theorem reserved_append (l l' : List Event) : reserved (l ++ l') = reserved l + reserved l' := by
  induction l with
  | nil => simp [reserved]
  | cons e l ih => cases e <;> simp only [List.cons_append, reserved, ih] <;> omega

theorem appended_append (l l' : List Event) : appended (l ++ l') = appended l ++ appended l' := by
  induction l with
  | nil => rfl
  | cons e l ih => cases e <;> simp only [List.cons_append, appended, ih, List.append_assoc]

theorem replay_decoder (l : List Event) (h : ∀ e ∈ l, e.OfDecoder) (b : Bytes) :
    replay l b = b.drop (octetsTaken l) := by
  induction l generalizing b with
  | nil => rfl
  | cons e l ih =>
    have h1 := h e (List.mem_cons_self ..)
    have h2 := ih (fun e' he => h e' (List.mem_cons_of_mem _ he))
    cases e with
    | put w => exact h1.elim
    | took n =>
      show replay l (b.drop n) = _
      rw [h2, List.drop_drop, octetsTaken]
    | reserve n => exact h2 b

theorem replay_encoder (l : List Event) (h : ∀ e ∈ l, e.OfEncoder) (b : Bytes) :
    replay l b = b ++ appended l := by
  induction l generalizing b with
  | nil => simp [replay, appended]
  | cons e l ih =>
    have h1 := h e (List.mem_cons_self ..)
    have h2 := ih (fun e' he => h e' (List.mem_cons_of_mem _ he))
    cases e with
    | put w =>
      show replay l (b ++ w) = _
      rw [h2, appended, List.append_assoc]
    | took n => exact h1.elim
    | reserve n => exact h1.elim

theorem reads_le_taken (l : List Event) (h : ∀ e ∈ l, e.OfDecoder) : reads l ≤ octetsTaken l := by
  induction l with
  | nil => exact Nat.le_refl _
  | cons e l ih =>
    have h1 := h e (List.mem_cons_self ..)
    have h2 := ih (fun e' he => h e' (List.mem_cons_of_mem _ he))
    cases e with
    | put w => exact h1.elim
    | took n =>
      simp only [reads, octetsTaken]
      rcases h1 with h1 | h1 | h1 | h1 <;> omega
    | reserve n => exact h2

theorem taken_le_reads (l : List Event) (h : ∀ e ∈ l, e.OfDecoder) : octetsTaken l ≤ 8 * reads l := by
  induction l with
  | nil => exact Nat.le_refl _
  | cons e l ih =>
    have h1 := h e (List.mem_cons_self ..)
    have h2 := ih (fun e' he => h e' (List.mem_cons_of_mem _ he))
    cases e with
    | put w => exact h1.elim
    | took n =>
      simp only [reads, octetsTaken]
      rcases h1 with h1 | h1 | h1 | h1 <;> omega
    | reserve n => exact h2

/-! ### Decoders -/

class Steps {α : Type} (g : Get α) : Prop where
  shape : ∀ prof b, ∀ e ∈ g.log prof b, e.OfDecoder
  within : ∀ prof b, octetsTaken (g.log prof b) ≤ b.length
  short : ∀ prof b, g prof b = .error .bufferUnderflow → (g.left prof b).length < 8

/-- At most `n` elements are reserved in advance. -/
class Reserves {α : Type} (n : Nat) (g : Get α) : Prop where
  le : ∀ prof b, reserved (g.log prof b) ≤ n

namespace Steps
variable {α β : Type}

theorem left_eq (g : Get α) [Steps g] (prof : Profile) (b : Bytes) :
    g.left prof b = b.drop (octetsTaken (g.log prof b)) := replay_decoder _ (shape prof b) b

theorem ok_eq (g : Get α) [Steps g] {prof : Profile} {b r : Bytes} {a : α} (h : g prof b = .ok (a, r)) :
    r = b.drop (octetsTaken (g.log prof b)) := by
  rw [← left_eq]; exact (g.sound prof b a r h).symm

instance (a : α) : Steps (Pure.pure a : M α) where
  shape _ _ _ h := nomatch h
  within _ _ := Nat.zero_le _
  short _ _ h := by cases h

instance (g : Get α) (f : α → Get β) [Steps g] [∀ a, Steps (f a)] : Steps (g >>= f) where
  shape prof b e h := by
    rw [M.bind_log] at h
    rcases List.mem_append.mp h with h | h
    · exact shape prof b e h
    · split at h
      · cases h
      · exact shape prof _ e h
  within prof b := by
    rw [M.bind_log, octetsTaken_append]
    have h1 := within (g := g) prof b
    split
    · exact h1
    · rename_i a r hr
      have h2 := within (g := f a) prof r
      have h3 := congrArg List.length (ok_eq g hr)
      rw [List.length_drop] at h3
      omega
  short prof b h := by
    unfold M.left
    rw [M.bind_log, replay_append]
    rw [M.bind_run] at h
    cases hg : g.run prof b with
    | error e =>
      rw [hg] at h
      cases h
      exact short prof b hg
    | ok ar =>
      rw [hg] at h
      rw [g.sound prof b ar.1 ar.2 hg]
      exact short (g := f ar.1) prof ar.2 h

theorem bytes {n : Nat} (hn : n = 1 ∨ n = 2 ∨ n = 4 ∨ n = 8) : Steps (getBytes n) where
  shape prof b e h := by
    simp only [getBytes] at h
    split at h
    · cases h
    · rw [List.mem_singleton.mp h]; exact hn
  within prof b := by
    simp only [getBytes]
    split
    · exact Nat.zero_le _
    · simp only [octetsTaken]; omega
  short prof b h := by
    simp only [getBytes] at h
    split at h
    · rename_i hb
      simp only [M.left, getBytes, if_pos hb]
      show b.length < 8
      omega
    · cases h

instance : Steps (getBytes 1) := bytes (by omega)
instance : Steps (getBytes 2) := bytes (by omega)
instance : Steps (getBytes 4) := bytes (by omega)
instance : Steps (getBytes 8) := bytes (by omega)

theorem panic {e : Panic} (he : e ≠ .bufferUnderflow) : Steps (M.panic e : M α) where
  shape _ _ _ h := nomatch h
  within _ _ := Nat.zero_le _
  short _ _ h := by cases h; exact absurd rfl he

instance : Steps (M.panic .expectFailed : M α) := panic (by decide)
instance : Steps (M.panic .unimplemented : M α) := panic (by decide)

instance : Steps remaining where
  shape _ _ _ h := nomatch h
  within _ _ := Nat.zero_le _
  short _ _ h := by cases h

instance (n : Nat) : Steps (M.reserve n) where
  shape _ _ e h := by rw [List.mem_singleton.mp h]; trivial
  within _ _ := Nat.zero_le _
  short _ _ h := by cases h

instance (a b : UInt16) : Steps (mulU16 a b) where
  shape _ _ _ h := nomatch h
  within _ _ := Nat.zero_le _
  short _ _ h := by
    simp only [mulU16] at h
    split at h <;> cases h

instance : Steps getRest where
  shape _ b e h := by rw [List.eq_of_mem_replicate h]; exact .inl rfl
  within _ b := by
    simp only [getRest]
    induction b with
    | nil => exact Nat.le_refl _
    | cons x b ih =>
      simp only [List.length_cons, List.replicate_succ, octetsTaken]
      omega
  short _ _ h := by cases h

instance (c : Prop) [Decidable c] (g g' : Get α) [Steps g] [Steps g'] : Steps (if c then g else g') := by
  split <;> infer_instance

instance many (g : Get α) [Steps g] : (n : Nat) → Steps (getN g n)
  | 0 => inferInstanceAs (Steps (Pure.pure []))
  | m + 1 =>
    have := many g m
    inferInstanceAs (Steps (g >>= fun x => getN g m >>= fun xs => Pure.pure (x :: xs)))

instance arr (g : Get α) [Steps g] : (n : Nat) → Steps (getArr g n)
  | 0 => inferInstanceAs (Steps (Pure.pure (⟨[], rfl⟩ : Arr α 0)))
  | m + 1 => by
    have := arr g m
    unfold getArr
    infer_instance

end Steps

namespace Reserves
variable {α β : Type} {n : Nat}

theorem of_nil {g : Get α} (h : ∀ prof b, reserved (g.log prof b) = 0) : Reserves n g :=
  ⟨fun prof b => by rw [h]; exact Nat.zero_le _⟩

instance (a : α) : Reserves n (Pure.pure a : M α) := of_nil fun _ _ => rfl
instance : Reserves n remaining := of_nil fun _ _ => rfl
instance (a b : UInt16) : Reserves n (mulU16 a b) := of_nil fun _ _ => rfl
instance (e : Panic) : Reserves n (M.panic e : M α) := of_nil fun _ _ => rfl
instance (m : Nat) : Reserves n (getBytes m) := of_nil fun _ b => by
  simp only [getBytes]; split <;> rfl
instance : Reserves n getRest := of_nil fun _ b => by
  simp only [getRest]
  induction b with
  | nil => rfl
  | cons x b ih => exact ih

theorem add {m : Nat} (g : Get α) (f : α → Get β) (h : Reserves m g) (h' : ∀ a, Reserves n (f a)) :
    Reserves (m + n) (g >>= f) where
  le prof b := by
    rw [M.bind_log, reserved_append]
    have h1 := le (g := g) prof b (n := m)
    split
    · show reserved (g.log prof b) + 0 ≤ _
      omega
    · rename_i a r hr
      have h2 := le (g := f a) prof r (n := n)
      omega

instance bind0 (g : Get α) (f : α → Get β) [h : Reserves 0 g] [h' : ∀ a, Reserves n (f a)] : Reserves n (g >>= f) :=
  (show n = 0 + n by omega) ▸ add g f h h'

theorem last (g : Get α) (f : α → Get β) (h : Reserves n g) (h' : ∀ a, Reserves 0 (f a)) : Reserves n (g >>= f) :=
  add g f h h'

instance (c : Prop) [Decidable c] (g g' : Get α) [Reserves n g] [Reserves n g'] :
    Reserves n (if c then g else g') := by
  split <;> infer_instance

instance many (g : Get α) [Reserves 0 g] : (m : Nat) → Reserves 0 (getN g m)
  | 0 => inferInstanceAs (Reserves 0 (Pure.pure []))
  | m + 1 =>
    have := many g m
    inferInstanceAs (Reserves 0 (g >>= fun x => getN g m >>= fun xs => Pure.pure (x :: xs)))

instance arr (g : Get α) [Reserves 0 g] : (m : Nat) → Reserves 0 (getArr g m)
  | 0 => inferInstanceAs (Reserves 0 (Pure.pure (⟨[], rfl⟩ : Arr α 0)))
  | m + 1 => by
    have := arr g m
    unfold getArr
    infer_instance

theorem reserve {m : Nat} (h : m ≤ n) : Reserves n (M.reserve m) := ⟨fun _ _ => by
  show m + 0 ≤ n; omega⟩

end Reserves

/-! ### Encoders -/

/-- Only ever appends; what it appends until it ends or panics does not depend on what is already in the buffer. -/
class Puts {α : Type} (p : M α) : Prop where
  shape : ∀ prof b, ∀ e ∈ p.log prof b, e.OfEncoder
  same : ∀ prof b b', p.log prof b = p.log prof b'
  result : ∀ prof b b', (p prof b).map Prod.fst = (p prof b').map Prod.fst

namespace Puts
variable {α β : Type}

theorem left_eq (p : M α) [Puts p] (prof : Profile) (b : Bytes) :
    p.left prof b = b ++ appended (p.log prof []) := by
  rw [← same (p := p) prof b []]
  exact replay_encoder _ (shape prof b) b

instance (a : α) : Puts (Pure.pure a : M α) := ⟨fun _ _ _ h => (nomatch h), fun _ _ _ => rfl, fun _ _ _ => rfl⟩
instance (e : Panic) : Puts (M.panic e : M α) := ⟨fun _ _ _ h => (nomatch h), fun _ _ _ => rfl, fun _ _ _ => rfl⟩
instance (w : Bytes) : Puts (putBytes w) :=
  ⟨fun _ _ e h => by rw [List.mem_singleton.mp h]; trivial, fun _ _ _ => rfl, fun _ _ _ => rfl⟩
instance (a b : UInt16) : Puts (mulU16 a b) :=
  ⟨fun _ _ _ h => (nomatch h), fun _ _ _ => rfl, fun _ _ _ => by simp only [mulU16]; split <;> rfl⟩

instance bind (p : M α) (f : α → M β) [Puts p] [∀ a, Puts (f a)] : Puts (p >>= f) where
  shape prof b e h := by
    rw [M.bind_log] at h
    rcases List.mem_append.mp h with h | h
    · exact shape prof b e h
    · split at h
      · cases h
      · exact shape prof _ e h
  same prof b b' := by
    rw [M.bind_log, M.bind_log, same (p := p) prof b b']
    have h := result (p := p) prof b b'
    cases h1 : p.run prof b with
    | error e =>
      cases h2 : p.run prof b' with
      | error e' => rfl
      | ok r => rw [h1, h2] at h; cases h
    | ok r =>
      cases h2 : p.run prof b' with
      | error e' => rw [h1, h2] at h; cases h
      | ok r' =>
        rw [h1, h2] at h
        simp only [Except.map, Except.ok.injEq] at h
        show _ ++ (f r.1).log prof r.2 = _ ++ (f r'.1).log prof r'.2
        rw [h, same (p := f r'.1) prof r.2 r'.2]
  result prof b b' := by
    rw [M.bind_run, M.bind_run]
    have h := result (p := p) prof b b'
    cases h1 : p.run prof b with
    | error e =>
      cases h2 : p.run prof b' with
      | error e' => rw [h1, h2] at h; cases h; rfl
      | ok r => rw [h1, h2] at h; cases h
    | ok r =>
      cases h2 : p.run prof b' with
      | error e' => rw [h1, h2] at h; cases h
      | ok r' =>
        rw [h1, h2] at h
        simp only [Except.map, Except.ok.injEq] at h
        show Except.map _ ((f r.1).run prof r.2) = Except.map _ ((f r'.1).run prof r'.2)
        rw [h]
        exact result (p := f r'.1) prof r.2 r'.2

instance (c : Prop) [Decidable c] (g g' : M α) [Puts g] [Puts g'] : Puts (if c then g else g') := by
  split <;> infer_instance

instance each (put : α → Put) [∀ x, Puts (put x)] : (xs : List α) → Puts (putEach put xs)
  | [] => inferInstanceAs (Puts (Pure.pure ()))
  | x :: xs =>
    have := each put xs
    inferInstanceAs (Puts (put x >>= fun _ => putEach put xs))

/-- Splits a sequence of writes. -/
macro "puts" : tactic =>
  `(tactic| (repeat' refine @Puts.bind _ _ _ _ ?_ fun _ => ?_) <;> infer_instance)

end Puts
end Dis
