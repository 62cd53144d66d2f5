import Verif.Model.Buf
import Verif.Proofs.DefinePdu
/-
C63: sources of octets.  Every program over `Buf` behaves on a source as on the list of its octets.
-/
namespace Dis
namespace Buf
variable {S T : Type} {B : Buf S} {octets : S → Bytes}

theorem Holds.chunk_take (h : B.Holds octets) (s : S) {n : Nat} (hn : n ≤ (B.chunk s).length) :
    (B.chunk s).take n = (octets s).take n := by
  obtain ⟨m, e⟩ := h.chunk_front s
  rw [e, List.take_append_of_le_length hn]

theorem Holds.chunk_le (h : B.Holds octets) (s : S) : (B.chunk s).length ≤ (octets s).length := by
  obtain ⟨m, e⟩ := h.chunk_front s
  rw [e, List.length_append]; omega

theorem Holds.copy (h : B.Holds octets) : ∀ (fuel n : Nat) (s : S), n ≤ fuel → n ≤ (octets s).length →
    (B.copy fuel n s).1 = (octets s).take n ∧ octets (B.copy fuel n s).2 = (octets s).drop n := by
  intro fuel
  induction fuel with
  | zero =>
    intro n s hf hn
    have : n = 0 := by omega
    subst this
    exact ⟨rfl, rfl⟩
  | succ fuel ih =>
    intro n s hf hn
    rw [Buf.copy]
    by_cases h0 : n = 0
    · rw [if_pos h0, h0]; exact ⟨rfl, rfl⟩
    · rw [if_neg h0]
      dsimp only
      have hne : B.chunk s ≠ [] := h.chunk_some s (by intro e; rw [e] at hn; simp at hn; omega)
      have hpos := List.length_pos_iff.mpr hne
      have hle := h.chunk_le s
      generalize hc : min (B.chunk s).length n = c
      have hcn : c ≤ (octets s).length := by omega
      have ha := h.advance_eq s c hcn
      obtain ⟨i1, i2⟩ := ih (n - c) (B.advance s c) (by omega) (by rw [ha, List.length_drop]; omega)
      rw [ha] at i1 i2
      rw [i1, i2, h.chunk_take s (by omega), List.drop_drop, show c + (n - c) = n by omega]
      refine ⟨?_, rfl⟩
      have : n = c + (n - c) := by omega
      conv => rhs; rw [this, List.take_add]

theorem Holds.get (h : B.Holds octets) (n : Nat) (s : S) :
    if (octets s).length < n then B.get n s = (.error .bufferUnderflow, s)
    else ∃ s', B.get n s = (.ok ((octets s).take n), s') ∧ octets s' = (octets s).drop n := by
  unfold Buf.get
  rw [h.remaining_eq]
  by_cases hn : (octets s).length < n
  · rw [if_pos hn, if_pos hn]
  · rw [if_neg hn, if_neg hn]
    by_cases hc : n ≤ (B.chunk s).length
    · rw [if_pos hc]
      exact ⟨_, by rw [h.chunk_take s hc], h.advance_eq s n (by omega)⟩
    · rw [if_neg hc]
      obtain ⟨h1, h2⟩ := h.copy n n s (Nat.le_refl _) (by omega)
      exact ⟨_, by dsimp only; rw [h1], h2⟩

theorem slice_holds : slice.Holds id where
  remaining_eq _ := rfl
  chunk_front _ := ⟨[], (List.append_nil _).symm⟩
  chunk_some _ h := h
  advance_eq _ _ _ := rfl

theorem chain_holds {A : Buf S} {B : Buf T} {oA : S → Bytes} {oB : T → Bytes} (hA : A.Holds oA) (hB : B.Holds oB) :
    (chain A B).Holds fun s => oA s.1 ++ oB s.2 where
  remaining_eq s := by
    show A.remaining s.1 + B.remaining s.2 = _
    rw [hA.remaining_eq, hB.remaining_eq, List.length_append]
  chunk_front s := by
    show ∃ more, _ = (if A.remaining s.1 ≠ 0 then A.chunk s.1 else B.chunk s.2) ++ more
    rw [hA.remaining_eq]
    split
    · obtain ⟨m, e⟩ := hA.chunk_front s.1
      exact ⟨m ++ oB s.2, by rw [e, List.append_assoc]⟩
    · rename_i h0
      have : oA s.1 = [] := List.length_eq_zero_iff.mp (by omega)
      obtain ⟨m, e⟩ := hB.chunk_front s.2
      exact ⟨m, by rw [this, e]; rfl⟩
  chunk_some s hs := by
    show (if A.remaining s.1 ≠ 0 then A.chunk s.1 else B.chunk s.2) ≠ []
    rw [hA.remaining_eq]
    split
    · rename_i h0
      exact hA.chunk_some _ (fun e => h0 (by rw [e]; rfl))
    · rename_i h0
      have : oA s.1 = [] := List.length_eq_zero_iff.mp (by omega)
      exact hB.chunk_some _ (fun e => hs (by rw [this, e]; rfl))
  advance_eq s n hn := by
    rw [List.length_append] at hn
    simp only [chain, hA.remaining_eq]
    by_cases h0 : (oA s.1).length ≠ 0
    · rw [if_pos h0]
      by_cases hle : n ≤ (oA s.1).length
      · rw [if_pos hle]
        show oA (A.advance s.1 n) ++ oB s.2 = _
        rw [hA.advance_eq _ _ hle, List.drop_append_of_le_length hle]
      · rw [if_neg hle]
        show oA (A.advance s.1 _) ++ oB (B.advance s.2 _) = _
        rw [hA.advance_eq _ _ (Nat.le_refl _), hB.advance_eq _ _ (by omega), List.drop_append, List.drop_length,
          List.drop_eq_nil_of_le (show (oA s.1).length ≤ n by omega)]
    · rw [if_neg h0]
      have e : oA s.1 = [] := List.length_eq_zero_iff.mp (by omega)
      show oA s.1 ++ oB (B.advance s.2 n) = _
      rw [e, hB.advance_eq _ _ (by rw [e] at hn; simpa using hn)]
      rfl

theorem take_holds {A : Buf S} {oA : S → Bytes} (hA : A.Holds oA) : (take A).Holds fun s => (oA s.1).take s.2 where
  remaining_eq s := by
    show min (A.remaining s.1) s.2 = _
    rw [hA.remaining_eq, List.length_take, Nat.min_comm]
  chunk_front s := by
    obtain ⟨m, e⟩ := hA.chunk_front s.1
    refine ⟨m.take (s.2 - (A.chunk s.1).length), ?_⟩
    show List.take s.2 (oA s.1) = (A.chunk s.1).take (min (A.chunk s.1).length s.2) ++ _
    rw [e, List.take_append, Nat.min_comm, ← List.take_take, List.take_length]
  chunk_some s hs := by
    show (A.chunk s.1).take (min (A.chunk s.1).length s.2) ≠ []
    have h1 : oA s.1 ≠ [] := fun e => hs (by rw [e, List.take_nil])
    have h2 : s.2 ≠ 0 := fun e => hs (by rw [e, List.take_zero])
    have h3 := List.length_pos_iff.mpr (hA.chunk_some _ h1)
    rw [← List.length_pos_iff, List.length_take]
    omega
  advance_eq s n hn := by
    rw [List.length_take] at hn
    show (oA (A.advance s.1 n)).take (s.2 - n) = _
    rw [hA.advance_eq _ _ (by omega), List.drop_take]

theorem segments_holds : (n : Nat) → (segments n).Holds (Segments.octets n)
  | 0 => slice_holds
  | n + 1 => chain_holds slice_holds (segments_holds n)

end Buf

namespace Prog
variable {α β S : Type}

def bind : Prog α → (α → Prog β) → Prog β
  | ret a, f => f a
  | panic e, _ => panic e
  | get n k, f => get n fun w => (k w).bind f
  | remaining k, f => remaining fun n => (k n).bind f
  | reserve n k, f => reserve n (k.bind f)

theorem m_bind (p : Prog α) (f : α → Prog β) : (p.bind f).m = (p.m >>= fun a => (f a).m) := by
  induction p with
  | ret a => exact (M.pure_bind a fun a => (f a).m).symm
  | panic e => exact M.ext (fun _ _ => rfl) (fun _ _ => rfl)
  | get n k ih =>
    show (getBytes n >>= fun w => ((k w).bind f).m) = ((getBytes n >>= fun w => (k w).m) >>= _)
    rw [M.bind_assoc]; simp only [ih]
  | remaining k ih =>
    show (Dis.remaining >>= fun w => ((k w).bind f).m) = ((Dis.remaining >>= fun w => (k w).m) >>= _)
    rw [M.bind_assoc]; simp only [ih]
  | reserve n k ih =>
    show (M.reserve n >>= fun w => (k.bind f).m) = ((M.reserve n >>= fun w => k.m) >>= _)
    rw [M.bind_assoc]; simp only [ih]

/-- On any source, the program does what it does on the list of octets that the source holds. -/
theorem on_eq {B : Buf S} {octets : S → Bytes} (h : B.Holds octets) (prof : Profile) (p : Prog α) (s : S) :
    (p.on B s).1 = (p.m prof (octets s)).map Prod.fst ∧ octets (p.on B s).2 = p.m.left prof (octets s) := by
  induction p generalizing s with
  | ret a => exact ⟨rfl, rfl⟩
  | panic e => exact ⟨rfl, rfl⟩
  | get n k ih =>
    have hg := h.get n s
    unfold on m M.left
    rw [M.bind_run, M.bind_log]
    by_cases hn : (octets s).length < n
    · rw [if_pos hn] at hg
      rw [hg]
      simp only [getBytes, if_pos hn]
      exact ⟨rfl, rfl⟩
    · rw [if_neg hn] at hg
      obtain ⟨s', e, hs⟩ := hg
      rw [e]
      simp only [getBytes, if_neg hn]
      rw [replay_append, ← hs]
      obtain ⟨h1, h2⟩ := ih ((octets s).take n) s'
      refine ⟨h1, h2.trans ?_⟩
      show replay _ (octets s') = replay _ ((octets s).drop n)
      rw [hs]
  | remaining k ih =>
    unfold on
    rw [h.remaining_eq]
    obtain ⟨h1, h2⟩ := ih (octets s).length s
    exact ⟨h1, h2⟩
  | reserve n k ih => exact ih s

/-- What no `advance` within the source changes, no program changes. -/
theorem on_invariant {X : Type} {B : Buf S} {octets : S → Bytes} (h : B.Holds octets) (inv : S → X)
    (hi : ∀ s n, n ≤ (octets s).length → inv (B.advance s n) = inv s) (p : Prog α) (s : S) :
    inv (p.on B s).2 = inv s := by
  have hcopy : ∀ (fuel n : Nat) (s : S), n ≤ (octets s).length → inv (B.copy fuel n s).2 = inv s := by
    intro fuel
    induction fuel with
    | zero => intros; rfl
    | succ fuel ih =>
      intro n s hn
      rw [Buf.copy]
      by_cases h0 : n = 0
      · rw [if_pos h0]
      · rw [if_neg h0]
        dsimp only
        have hle := h.chunk_le s
        generalize hc : min (B.chunk s).length n = c
        rw [ih _ _ (by rw [h.advance_eq _ _ (by omega), List.length_drop]; omega), hi _ _ (by omega)]
  induction p generalizing s with
  | ret a => rfl
  | panic e => rfl
  | get n k ih =>
    have hget : inv (B.get n s).2 = inv s := by
      unfold Buf.get
      rw [h.remaining_eq]
      split
      · rfl
      · split
        · exact hi _ _ (by omega)
        · exact hcopy _ _ _ (by omega)
    unfold on
    generalize B.get n s = g at hget
    obtain ⟨r, s'⟩ := g
    cases r with
    | error e => exact hget
    | ok w => exact (ih w s').trans hget
  | remaining k ih => exact ih _ s
  | reserve n k ih => exact ih s

end Prog
end Dis
