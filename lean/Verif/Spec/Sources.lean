import Verif.Model.Buf
import Verif.Model.DefinePdu
/-
What C63 says about sources of octets.
-/
namespace Dis

/-- The program over `Buf` is the decoder: run on a slice, it has the same result, in each build, and leaves the same octets,
be it after a panic. -/
def Prog.Is {α : Type} (p : Profile → Prog α) (g : Get α) : Prop :=
  ∀ prof b, (p prof).on Buf.slice b = ((g prof b).map Prod.fst, g.left prof b)

/-- The decoder is written against `get_*` and `remaining` of `Buf`. -/
def WrittenForBuf {α : Type} (g : Get α) : Prop := ∃ p : Profile → Prog α, Prog.Is p g

/-- The same of a field of a user's definition. -/
def FieldDef.WrittenForBuf : FieldDef → Prop
  | .byte => True
  | .plain _ d => Dis.WrittenForBuf d
  | .counted _ d _ => ∀ n, Dis.WrittenForBuf (d n)

end Dis
