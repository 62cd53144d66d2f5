import Verif.Spec.Wire
/-
Specification vocabulary for PDU bodies.
-/
namespace Dis

/-- The octets at the end of a PDU's wire image that its decoder leaves unread: the images of the
trailing lists and optionals. -/
class Tail (B : Type) where
  tail : B → Bytes
export Tail (tail)

end Dis
