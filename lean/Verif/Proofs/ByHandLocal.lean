import Verif.Proofs.ByHand
/-
What the receiver of Spec/ByHand makes of a message does not depend on what follows (for C66).
-/
set_option maxRecDepth 4000
namespace Dis

macro "locals" : tactic => `(tactic| repeat' first
  | exact Local.ret _
  | exact LocalDec.loc
  | refine Local.n ?_ _
  | refine Local.bind ?_ fun _ => ?_)

theorem VariableDatumRecord.byHand_local : Local VariableDatumRecord.byHand := by
  unfold VariableDatumRecord.byHand; locals
theorem VariableTransmitterParameters.byHand_local : Local VariableTransmitterParameters.byHand := by
  unfold VariableTransmitterParameters.byHand; locals
theorem GridAxisDescriptor.byHand_local : Local GridAxisDescriptor.byHand := by
  unfold GridAxisDescriptor.byHand; locals
  split <;> locals
theorem GridDataRecord.byHand_local : Local GridDataRecord.byHand := by
  unfold GridDataRecord.byHand; locals
  split
  · locals
  · split <;> locals
theorem EntityStatePdu.byHand_local : Local EntityStatePdu.byHand := by
  unfold EntityStatePdu.byHand; locals
theorem AggregateStatePdu.byHand_local : Local AggregateStatePdu.byHand := by
  unfold AggregateStatePdu.byHand; locals
theorem StopFreezePdu.byHand_local : Local StopFreezePdu.byHand := by
  unfold StopFreezePdu.byHand; locals
theorem StopFreezeReliablePdu.byHand_local : Local StopFreezeReliablePdu.byHand := by
  unfold StopFreezeReliablePdu.byHand; locals
theorem ArealObjectStatePdu.byHand_local : Local ArealObjectStatePdu.byHand := by
  unfold ArealObjectStatePdu.byHand; locals

theorem readReported_local {α : Type} (filter : UInt32) (i n : Nat) {read : Get α} (h : Local read) :
    Local (readReported filter i n read) := by
  unfold readReported
  split
  · exact Local.bind (Local.n h _) fun _ => Local.ret _
  · exact Local.ret _

theorem readVertices_local : ∀ ns, Local (readVertices ns)
  | [] => Local.ret _
  | _ :: ns => Local.bind (Local.n EntityCoordinateVector.fixed.local _) fun _ =>
      Local.bind (readVertices_local ns) fun _ => Local.ret _

theorem MinefieldDataPdu.complete_local (x : MinefieldDataPdu) : Local x.complete := by
  unfold MinefieldDataPdu.complete
  repeat' first
    | exact Local.ret _
    | exact LocalDec.loc
    | exact readVertices_local _
    | refine readReported_local _ _ _ ?_
    | refine Local.n ?_ _
    | refine Local.bind ?_ fun _ => ?_

theorem AntennaPattern.local (n : UInt16) : Local (AntennaPattern.deserialize n) := by
  unfold AntennaPattern.deserialize
  split <;> locals

theorem PduKind.complete_local (k : PduKind) (n : Nat) (b : k.Body) : Local (k.complete n b) := by
  cases k
  case MinefieldData => exact MinefieldDataPdu.complete_local b
  case GriddedData =>
    exact Local.bind (Local.n GridAxisDescriptor.byHand_local _) fun _ =>
      Local.bind (Local.n GridDataRecord.byHand_local _) fun _ => Local.ret _
  case Transmitter =>
    exact Local.bind (AntennaPattern.local _) fun _ =>
      Local.bind (Local.n VariableTransmitterParameters.byHand_local _) fun _ => Local.ret _
  all_goals first
    | exact Local.ret _
    | exact Local.bind (Local.n LocalDec.loc _) fun _ => Local.ret _
    | exact Local.bind (Local.n LocalDec.loc _) fun _ => Local.bind (Local.n LocalDec.loc _) fun _ => Local.ret _
    | exact Local.bind (Local.n LocalDec.loc _) fun _ =>
        Local.bind (Local.n VariableDatumRecord.byHand_local _) fun _ => Local.ret _
    | exact Local.bind (Local.n LocalDec.loc _) fun _ => Local.bind (Local.n LocalDec.loc _) fun _ =>
        Local.bind (Local.n LocalDec.loc _) fun _ => Local.ret _

end Dis
