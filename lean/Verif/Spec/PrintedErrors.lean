import Verif.Model.Errors
/- Specification for `C45_debug`: an error without the errors of other crates in it. -/
namespace Dis

/-- the error with every underlying error of another crate left out (or, where there always is one, replaced by one
without text) -/
def DISError.bare : DISError → DISError
  | .InvalidHeader reason _ => .InvalidHeader reason none
  | .DeserializationError msg _ => .DeserializationError msg none
  | .SerializationError msg _ => .SerializationError msg none
  | .NetworkError _ => .NetworkError ⟨""⟩
  | e => e

end Dis
