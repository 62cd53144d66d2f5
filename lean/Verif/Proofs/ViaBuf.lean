import Verif.Proofs.Buf
import Verif.Model.PduKind
import Verif.Spec.Sources
/-
C63: which decoders are programs over `Buf`.  As in Proofs/Steps, instance search proves it for a whole function from its
text.
-/
namespace Dis

/-- The decoder is a program over `Buf`, one for each build. -/
class ViaBuf {α : Type} (g : Get α) : Prop where
  prog : ∃ p : Profile → Prog α, ∀ prof b, g prof b = (p prof).m prof b ∧ g.left prof b = (p prof).m.left prof b

namespace ViaBuf
variable {α β : Type}

theorem of_m {g : Get α} (p : Prog α) (h : g = p.m) : ViaBuf g := ⟨fun _ => p, fun _ _ => by rw [h]; exact ⟨rfl, rfl⟩⟩

instance (a : α) : ViaBuf (Pure.pure a : M α) := of_m (.ret a) rfl
instance (e : Panic) : ViaBuf (M.panic e : M α) := of_m (.panic e) rfl
instance (n : Nat) : ViaBuf (M.reserve n) := of_m (.reserve n (.ret ())) (M.bind_unit _).symm
instance (n : Nat) : ViaBuf (getBytes n) := of_m (.get n .ret) (M.bind_pure' _).symm
instance : ViaBuf remaining := of_m (.remaining .ret) (M.bind_pure' _).symm

/-- `while buf.has_remaining() { v.push(buf.get_u8()) }`, at most `fuel` rounds -/
def drain : (fuel : Nat) → Prog Bytes
  | 0 => .ret []
  | fuel + 1 => .remaining fun r => if r = 0 then .ret [] else .get 1 fun w => (drain fuel).bind fun v => .ret (w ++ v)

theorem drain_m (prof : Profile) (fuel : Nat) (b : Bytes) (h : b.length ≤ fuel) :
    (drain fuel).m prof b = .ok (b, []) ∧ (drain fuel).m.log prof b = List.replicate b.length (.took 1) := by
  induction fuel generalizing b with
  | zero =>
    have : b = [] := List.length_eq_zero_iff.mp (by omega)
    subst this
    exact ⟨rfl, rfl⟩
  | succ fuel ih =>
    show (Dis.remaining >>= _ : M Bytes) prof b = _ ∧ (Dis.remaining >>= _ : M Bytes).log prof b = _
    rw [M.bind_run, M.bind_log]
    show (if b.length = 0 then _ else _ : Prog Bytes).m prof b = _ ∧ (if b.length = 0 then _ else _ : Prog Bytes).m.log prof b = _
    cases b with
    | nil => exact ⟨rfl, rfl⟩
    | cons x b =>
      obtain ⟨h1, h2⟩ := ih b (by simpa using h)
      rw [if_neg (by simp)]
      show (getBytes 1 >>= fun w => ((drain fuel).bind fun v => .ret (w ++ v)).m : M Bytes) prof _ = _ ∧
        (getBytes 1 >>= fun w => ((drain fuel).bind fun v => .ret (w ++ v)).m : M Bytes).log prof _ = _
      simp only [Prog.m_bind]
      rw [M.bind_run, M.bind_log]
      have e1 : (getBytes 1).run prof (x :: b) = .ok ([x], b) := by simp [getBytes]
      have e2 : (getBytes 1).log prof (x :: b) = [.took 1] := by simp [getBytes]
      rw [e1, e2]
      dsimp only
      rw [M.bind_run, M.bind_log, h1, h2]
      exact ⟨rfl, by simp [List.replicate_succ, Prog.m, M.pure_log]⟩

instance : ViaBuf getRest where
  prog := ⟨fun _ => .remaining fun r => drain r, fun prof b => by
    obtain ⟨h1, h2⟩ := drain_m prof b.length b (Nat.le_refl _)
    refine ⟨h1.symm, ?_⟩
    show replay _ b = replay _ b
    exact congrArg (replay · b) h2.symm⟩

instance (x y : UInt16) : ViaBuf (mulU16 x y) where
  prog := ⟨fun prof => if prof.overflowChecks ∧ 65536 ≤ x.toNat * y.toNat then .panic .arithmeticOverflow
    else .ret (x * y), fun prof b => by
      unfold mulU16
      dsimp only
      split <;> exact ⟨rfl, rfl⟩⟩

theorem bind_left (g : M α) (f : α → M β) (prof : Profile) (b : Bytes) : (g >>= f).left prof b =
    match g prof b with
    | .error _ => g.left prof b
    | .ok (a, r) => (f a).left prof r := by
  unfold M.left
  rw [M.bind_log, replay_append]
  cases h : g.run prof b with
  | error e => rfl
  | ok r => rw [g.sound prof b r.1 r.2 h]

instance bind (g : Get α) (f : α → Get β) [h : ViaBuf g] [h' : ∀ a, ViaBuf (f a)] : ViaBuf (g >>= f) where
  prog := by
    obtain ⟨p, hp⟩ := h.prog
    refine ⟨fun prof => (p prof).bind fun a => (h' a).prog.choose prof, fun prof b => ?_⟩
    rw [Prog.m_bind, M.bind_run, bind_left, M.bind_run, bind_left, ← (hp prof b).1, ← (hp prof b).2]
    cases g.run prof b with
    | error e => exact ⟨rfl, rfl⟩
    | ok r => exact (h' r.1).prog.choose_spec prof r.2

instance (c : Prop) [Decidable c] (g g' : M α) [ViaBuf g] [ViaBuf g'] : ViaBuf (if c then g else g') := by
  split <;> infer_instance

instance many (g : Get α) [ViaBuf g] : (n : Nat) → ViaBuf (getN g n)
  | 0 => inferInstanceAs (ViaBuf (Pure.pure []))
  | m + 1 =>
    have := many g m
    inferInstanceAs (ViaBuf (g >>= fun x => getN g m >>= fun xs => Pure.pure (x :: xs)))

instance arr (g : Get α) [ViaBuf g] : (n : Nat) → ViaBuf (getArr g n)
  | 0 => inferInstanceAs (ViaBuf (Pure.pure (⟨[], rfl⟩ : Arr α 0)))
  | m + 1 => by
    have := arr g m
    unfold getArr
    infer_instance

theorem is_iff (p : Profile → Prog α) (g : Get α) :
    Prog.Is p g ↔ ∀ prof b, g prof b = (p prof).m prof b ∧ g.left prof b = (p prof).m.left prof b := by
  refine forall_congr' fun prof => forall_congr' fun b => ?_
  obtain ⟨h1, h2⟩ := Prog.on_eq Buf.slice_holds prof (p prof) b
  constructor
  · intro h
    have e1 := h1.symm.trans (congrArg Prod.fst h)
    have e2 := h2.symm.trans (congrArg Prod.snd h)
    dsimp only [id] at e1 e2
    refine ⟨?_, e2.symm⟩
    cases hg : g.run prof b with
    | error e =>
      rw [hg] at e1
      cases hm : (p prof).m.run prof b with
      | error e' => rw [hm] at e1; cases e1; rfl
      | ok r => rw [hm] at e1; cases e1
    | ok r =>
      rw [hg] at e1
      cases hm : (p prof).m.run prof b with
      | error e' => rw [hm] at e1; cases e1
      | ok r' =>
        rw [hm] at e1
        have e3 := g.sound prof b r.1 r.2 hg
        have e4 := (p prof).m.sound prof b r'.1 r'.2 hm
        have e5 : r'.1 = r.1 := Except.ok.inj e1
        have e6 : r'.2 = r.2 := e4.symm.trans (e2.trans e3)
        exact congrArg Except.ok (Prod.ext e5.symm e6.symm)
  · rintro ⟨e1, e2⟩
    rw [e1, e2]
    exact Prod.ext h1 h2

theorem iff_written (g : Get α) : ViaBuf g ↔ WrittenForBuf g :=
  ⟨fun ⟨p, hp⟩ => ⟨p, (is_iff p g).mpr hp⟩, fun ⟨p, hp⟩ => ⟨p, (is_iff p g).mp hp⟩⟩

theorem written (g : Get α) [h : ViaBuf g] : WrittenForBuf g := (iff_written g).mp h

end ViaBuf
end Dis
