import Verif.Model.PduCore
import Verif.Spec.PduCommon
import Verif.Proofs.EnumLaws
/-
The laws one PDU body must satisfy for the generic theorems about `serialize` / `deserialize`.
-/
namespace Dis
open PduBody (pduType family fieldsLen prep serializeBody deserializeBody)

class LawfulBody (B : Type) [PduBody B] [Wire B] [Enc B] [Dec B] [Tail B] : Prop where
  writes : ∀ x : B, encodable x → Writes (serializeBody x) (wire (sent x))
  ok : ∀ x : B, WritesIfOk (serializeBody x) (wire (sent x))
  len : ∀ x : B, ((wire (sent x)).length : Int) = (fieldsLen x : Nat) + surplus x
  appends : ∀ x : B, Appends (serializeBody x)
  reads : ∀ x : B, decodable x → Reads (deserializeBody : Get B) (wire (kept x)) (kept x)
  split : ∀ x : B, wire x = wire (kept x) ++ tail x
  consumes : Consumes (deserializeBody : Get B)
  prep_len : ∀ x : B, fieldsLen (prep x) = fieldsLen x
  prep_idem : ∀ x : B, prep (prep x) = prep x
  prep_encodable : ∀ x : B, encodable (prep x) = encodable x
  prep_surplus : ∀ x : B, surplus (prep x) = surplus x

end Dis
