import Verif.Core.Basic
/-
Vocabulary for statements about readers and writers.  These are specification-level
predicates on observable behaviour (buffer before, buffer after, value, panic); they do not
mention how a reader or writer is written.
-/
namespace Dis

/-- In every build profile and on every output buffer, `p` succeeds and appends exactly `w`. -/
def Writes (p : Put) (w : Bytes) : Prop :=
  ∀ prof buf, p prof buf = .ok ((), buf ++ w)

/-- In every build profile, given `w` followed by anything, `g` returns `a` and leaves exactly
what followed. -/
def Reads {α : Type} (g : Get α) (w : Bytes) (a : α) : Prop :=
  ∀ prof rest, g prof (w ++ rest) = .ok (a, rest)

/-- `g` reads a fixed number `n` of octets: it panics (buffer underflow) when fewer remain, and
otherwise succeeds whatever they are, takes exactly `n`, and its value is a function of those
`n` octets alone (not of the profile nor of what follows). -/
def Fixed {α : Type} (g : Get α) (n : Nat) : Prop :=
  ∃ f : Bytes → α, ∀ prof b,
    g prof b = if b.length < n then .error .bufferUnderflow else .ok (f (b.take n), b.drop n)

/-- Whenever `g` succeeds, what it leaves is a suffix of its input. -/
def Consumes {α : Type} (g : Get α) : Prop :=
  ∀ prof b a r, g prof b = .ok (a, r) → ∃ u, b = u ++ r

/-- Whenever `g` succeeds, it has consumed a prefix `u` of its input, and would return the same
value, consuming the same prefix, whatever came after `u`. -/
def Local {α : Type} (g : Get α) : Prop :=
  ∀ prof b a r, g prof b = .ok (a, r) → ∃ u, b = u ++ r ∧ ∀ r', g prof (u ++ r') = .ok (a, r')

/-- In each profile, either `p` panics on every output buffer, always for the same reason, or it
succeeds on every output buffer and appends the same octets to it. -/
def Appends (p : Put) : Prop :=
  ∀ prof, (∃ e, ∀ buf, p prof buf = .error e) ∨ (∃ w, ∀ buf, p prof buf = .ok ((), buf ++ w))

/-- Whenever `p` succeeds, it has appended exactly `w`. -/
def WritesIfOk (p : Put) (w : Bytes) : Prop :=
  ∀ prof buf buf', p prof buf = .ok ((), buf') → buf' = buf ++ w

/-- The only panic `g` can raise is a buffer underflow. -/
def OnlyUnderflow {α : Type} (g : Get α) : Prop :=
  ∀ prof b e, g prof b = .error e → e = .bufferUnderflow

end Dis
