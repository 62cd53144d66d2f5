import Verif.Model.PduKind
import Verif.Model.Constructors
/-
Visibility: what a program that uses the crate can do to a PDU it holds.  The struct that `define_pdu!` writes has a
private header (src/pdu_macro.rs:233, reached through `header_mut`) and gives each field the visibility written before it
(src/pdu_macro.rs:235).  Written by tools/gen_visibility.py.
-/
namespace Dis

/-- src/distributed_emissions.rs:47: assigning the public fields of `self` from `c` leaves `padding`. -/
def ElectromagneticEmissionsPdu.assign (self c : ElectromagneticEmissionsPdu) : ElectromagneticEmissionsPdu :=
  { c with padding := self.padding }
/-- src/distributed_emissions.rs:70, 71: assigning the public fields of `self` from `c` leaves `padding`, `padding2`. -/
def DesignatorPdu.assign (self c : DesignatorPdu) : DesignatorPdu :=
  { c with padding := self.padding, padding2 := self.padding2 }
/-- src/distributed_emissions.rs:88: assigning the public fields of `self` from `c` leaves `padding`. -/
def UnderwaterAcousticPdu.assign (self c : UnderwaterAcousticPdu) : UnderwaterAcousticPdu :=
  { c with padding := self.padding }
/-- src/entity_information.rs:66: assigning the public fields of `self` from `c` leaves `padding`. -/
def CollisionPdu.assign (self c : CollisionPdu) : CollisionPdu :=
  { c with padding := self.padding }
/-- src/entity_information.rs:85: assigning the public fields of `self` from `c` leaves `padding`. -/
def CollisionElasticPdu.assign (self c : CollisionElasticPdu) : CollisionElasticPdu :=
  { c with padding := self.padding }
/-- src/entity_information.rs:110: assigning the public fields of `self` from `c` leaves `padding`. -/
def EntityStateUpdatePdu.assign (self c : EntityStateUpdatePdu) : EntityStateUpdatePdu :=
  { c with padding := self.padding }
/-- src/entity_information.rs:130, 131, 136: assigning the public fields of `self` from `c` leaves `padding`, `padding2`, `padding3`. -/
def AttributePdu.assign (self c : AttributePdu) : AttributePdu :=
  { c with padding := self.padding, padding2 := self.padding2, padding3 := self.padding3 }
/-- src/entity_management.rs:54: assigning the public fields of `self` from `c` leaves `padding`. -/
def AggregateStatePdu.assign (self c : AggregateStatePdu) : AggregateStatePdu :=
  { c with padding := self.padding }
/-- src/entity_management.rs:74: assigning the public fields of `self` from `c` leaves `padding`. -/
def IsGroupOfPdu.assign (self c : IsGroupOfPdu) : IsGroupOfPdu :=
  { c with padding := self.padding }
/-- src/information_operations.rs:36, 39, 40: assigning the public fields of `self` from `c` leaves `padding`, `padding2`, `padding3`. -/
def InformationOperationsReportPdu.assign (self c : InformationOperationsReportPdu) : InformationOperationsReportPdu :=
  { c with padding := self.padding, padding2 := self.padding2, padding3 := self.padding3 }
/-- src/information_operations.rs:61, 64: assigning the public fields of `self` from `c` leaves `padding`, `padding2`. -/
def InformationOperationsActionPdu.assign (self c : InformationOperationsActionPdu) : InformationOperationsActionPdu :=
  { c with padding := self.padding, padding2 := self.padding2 }
/-- src/logistics.rs:34: assigning the public fields of `self` from `c` leaves `padding`. -/
def ServiceRequestPdu.assign (self c : ServiceRequestPdu) : ServiceRequestPdu :=
  { c with padding := self.padding }
/-- src/logistics.rs:51, 52: assigning the public fields of `self` from `c` leaves `padding`, `padding2`. -/
def ResupplyOfferPdu.assign (self c : ResupplyOfferPdu) : ResupplyOfferPdu :=
  { c with padding := self.padding, padding2 := self.padding2 }
/-- src/logistics.rs:69, 70: assigning the public fields of `self` from `c` leaves `padding`, `padding2`. -/
def ResupplyReceivedPdu.assign (self c : ResupplyReceivedPdu) : ResupplyReceivedPdu :=
  { c with padding := self.padding, padding2 := self.padding2 }
/-- src/logistics.rs:101: assigning the public fields of `self` from `c` leaves `padding`. -/
def RepairCompletePdu.assign (self c : RepairCompletePdu) : RepairCompletePdu :=
  { c with padding := self.padding }
/-- src/logistics.rs:117, 118: assigning the public fields of `self` from `c` leaves `padding`, `padding2`. -/
def RepairResponsePdu.assign (self c : RepairResponsePdu) : RepairResponsePdu :=
  { c with padding := self.padding, padding2 := self.padding2 }
/-- src/minefield.rs:59: assigning the public fields of `self` from `c` leaves `padding`. -/
def MinefieldQueryPdu.assign (self c : MinefieldQueryPdu) : MinefieldQueryPdu :=
  { c with padding := self.padding }
/-- src/minefield.rs:85: assigning the public fields of `self` from `c` leaves `padding`. -/
def MinefieldDataPdu.assign (self c : MinefieldDataPdu) : MinefieldDataPdu :=
  { c with padding := self.padding }
/-- src/radio_communications.rs:57, 58: assigning the public fields of `self` from `c` leaves `padding`, `padding2`. -/
def TransmitterPdu.assign (self c : TransmitterPdu) : TransmitterPdu :=
  { c with padding := self.padding, padding2 := self.padding2 }
/-- src/radio_communications.rs:98: assigning the public fields of `self` from `c` leaves `padding`. -/
def ReceiverPdu.assign (self c : ReceiverPdu) : ReceiverPdu :=
  { c with padding := self.padding }
/-- src/simulation_management.rs:84: assigning the public fields of `self` from `c` leaves `padding`. -/
def StopFreezePdu.assign (self c : StopFreezePdu) : StopFreezePdu :=
  { c with padding := self.padding }
/-- src/simulation_management.rs:178: assigning the public fields of `self` from `c` leaves `padding`. -/
def SetDataPdu.assign (self c : SetDataPdu) : SetDataPdu :=
  { c with padding := self.padding }
/-- src/simulation_management.rs:198: assigning the public fields of `self` from `c` leaves `padding`. -/
def DataPdu.assign (self c : DataPdu) : DataPdu :=
  { c with padding := self.padding }
/-- src/simulation_management.rs:218: assigning the public fields of `self` from `c` leaves `padding`. -/
def EventReportPdu.assign (self c : EventReportPdu) : EventReportPdu :=
  { c with padding := self.padding }
/-- src/simulation_management_with_reliability.rs:40, 41: assigning the public fields of `self` from `c` leaves `padding`, `padding2`. -/
def CreateEntityReliablePdu.assign (self c : CreateEntityReliablePdu) : CreateEntityReliablePdu :=
  { c with padding := self.padding, padding2 := self.padding2 }
/-- src/simulation_management_with_reliability.rs:58, 59: assigning the public fields of `self` from `c` leaves `padding`, `padding2`. -/
def RemoveEntityReliablePdu.assign (self c : RemoveEntityReliablePdu) : RemoveEntityReliablePdu :=
  { c with padding := self.padding, padding2 := self.padding2 }
/-- src/simulation_management_with_reliability.rs:78, 79: assigning the public fields of `self` from `c` leaves `padding`, `padding2`. -/
def StartResumeReliablePdu.assign (self c : StartResumeReliablePdu) : StartResumeReliablePdu :=
  { c with padding := self.padding, padding2 := self.padding2 }
/-- src/simulation_management_with_reliability.rs:99: assigning the public fields of `self` from `c` leaves `padding`. -/
def StopFreezeReliablePdu.assign (self c : StopFreezeReliablePdu) : StopFreezeReliablePdu :=
  { c with padding := self.padding }
/-- src/simulation_management_with_reliability.rs:133, 134, 137: assigning the public fields of `self` from `c` leaves `padding`, `padding2`, `padding3`. -/
def ActionRequestReliablePdu.assign (self c : ActionRequestReliablePdu) : ActionRequestReliablePdu :=
  { c with padding := self.padding, padding2 := self.padding2, padding3 := self.padding3 }
/-- src/simulation_management_with_reliability.rs:177, 178: assigning the public fields of `self` from `c` leaves `padding`, `padding2`. -/
def DataQueryReliablePdu.assign (self c : DataQueryReliablePdu) : DataQueryReliablePdu :=
  { c with padding := self.padding, padding2 := self.padding2 }
/-- src/simulation_management_with_reliability.rs:200, 201: assigning the public fields of `self` from `c` leaves `padding`, `padding2`. -/
def SetDataReliablePdu.assign (self c : SetDataReliablePdu) : SetDataReliablePdu :=
  { c with padding := self.padding, padding2 := self.padding2 }
/-- src/simulation_management_with_reliability.rs:223, 224: assigning the public fields of `self` from `c` leaves `padding`, `padding2`. -/
def DataReliablePdu.assign (self c : DataReliablePdu) : DataReliablePdu :=
  { c with padding := self.padding, padding2 := self.padding2 }
/-- src/simulation_management_with_reliability.rs:244: assigning the public fields of `self` from `c` leaves `padding`. -/
def EventReportReliablePdu.assign (self c : EventReportReliablePdu) : EventReportReliablePdu :=
  { c with padding := self.padding }
/-- src/simulation_management_with_reliability.rs:283: assigning the public fields of `self` from `c` leaves `padding`. -/
def RecordQueryReliablePdu.assign (self c : RecordQueryReliablePdu) : RecordQueryReliablePdu :=
  { c with padding := self.padding }
/-- src/simulation_management_with_reliability.rs:304, 305, 306: assigning the public fields of `self` from `c` leaves `padding`, `padding2`, `padding3`. -/
def SetRecordReliablePdu.assign (self c : SetRecordReliablePdu) : SetRecordReliablePdu :=
  { c with padding := self.padding, padding2 := self.padding2, padding3 := self.padding3 }
/-- src/synthetic_environment.rs:68, 69: assigning the public fields of `self` from `c` leaves `padding`, `padding2`. -/
def GriddedDataPdu.assign (self c : GriddedDataPdu) : GriddedDataPdu :=
  { c with padding := self.padding, padding2 := self.padding2 }
/-- src/synthetic_environment.rs:94, 97: assigning the public fields of `self` from `c` leaves `padding`, `padding2`. -/
def PointObjectStatePdu.assign (self c : PointObjectStatePdu) : PointObjectStatePdu :=
  { c with padding := self.padding, padding2 := self.padding2 }
/-- src/warfare.rs:62: assigning the public fields of `self` from `c` leaves `padding`. -/
def DetonationPdu.assign (self c : DetonationPdu) : DetonationPdu :=
  { c with padding := self.padding }
/-- src/warfare.rs:84, 89, 90, 91: assigning the public fields of `self` from `c` leaves `padding`, `padding2`, `padding3`, `padding4`. -/
def DirectedEnergyFirePdu.assign (self c : DirectedEnergyFirePdu) : DirectedEnergyFirePdu :=
  { c with padding := self.padding, padding2 := self.padding2, padding3 := self.padding3, padding4 := self.padding4 }
/-- src/warfare.rs:107, 108: assigning the public fields of `self` from `c` leaves `padding`, `padding2`. -/
def EntityDamageStatusPdu.assign (self c : EntityDamageStatusPdu) : EntityDamageStatusPdu :=
  { c with padding := self.padding, padding2 := self.padding2 }

/-- Assigning all public fields of a PDU's body `self` from `c`; src/pdu_macro.rs:232-237.  Where no case is given, all
fields are public. -/
def PduKind.assign : (k : PduKind) → k.Body → k.Body → k.Body
  | .ElectromagneticEmissions, b, c => ElectromagneticEmissionsPdu.assign b c
  | .Designator, b, c => DesignatorPdu.assign b c
  | .UnderwaterAcoustic, b, c => UnderwaterAcousticPdu.assign b c
  | .Collision, b, c => CollisionPdu.assign b c
  | .CollisionElastic, b, c => CollisionElasticPdu.assign b c
  | .EntityStateUpdate, b, c => EntityStateUpdatePdu.assign b c
  | .Attribute, b, c => AttributePdu.assign b c
  | .AggregateState, b, c => AggregateStatePdu.assign b c
  | .IsGroupOf, b, c => IsGroupOfPdu.assign b c
  | .InformationOperationsReport, b, c => InformationOperationsReportPdu.assign b c
  | .InformationOperationsAction, b, c => InformationOperationsActionPdu.assign b c
  | .ServiceRequest, b, c => ServiceRequestPdu.assign b c
  | .ResupplyOffer, b, c => ResupplyOfferPdu.assign b c
  | .ResupplyReceived, b, c => ResupplyReceivedPdu.assign b c
  | .RepairComplete, b, c => RepairCompletePdu.assign b c
  | .RepairResponse, b, c => RepairResponsePdu.assign b c
  | .MinefieldQuery, b, c => MinefieldQueryPdu.assign b c
  | .MinefieldData, b, c => MinefieldDataPdu.assign b c
  | .Transmitter, b, c => TransmitterPdu.assign b c
  | .Receiver, b, c => ReceiverPdu.assign b c
  | .StopFreeze, b, c => StopFreezePdu.assign b c
  | .SetData, b, c => SetDataPdu.assign b c
  | .Data, b, c => DataPdu.assign b c
  | .EventReport, b, c => EventReportPdu.assign b c
  | .CreateEntityReliable, b, c => CreateEntityReliablePdu.assign b c
  | .RemoveEntityReliable, b, c => RemoveEntityReliablePdu.assign b c
  | .StartResumeReliable, b, c => StartResumeReliablePdu.assign b c
  | .StopFreezeReliable, b, c => StopFreezeReliablePdu.assign b c
  | .ActionRequestReliable, b, c => ActionRequestReliablePdu.assign b c
  | .DataQueryReliable, b, c => DataQueryReliablePdu.assign b c
  | .SetDataReliable, b, c => SetDataReliablePdu.assign b c
  | .DataReliable, b, c => DataReliablePdu.assign b c
  | .EventReportReliable, b, c => EventReportReliablePdu.assign b c
  | .RecordQueryReliable, b, c => RecordQueryReliablePdu.assign b c
  | .SetRecordReliable, b, c => SetRecordReliablePdu.assign b c
  | .GriddedData, b, c => GriddedDataPdu.assign b c
  | .PointObjectState, b, c => PointObjectStatePdu.assign b c
  | .Detonation, b, c => DetonationPdu.assign b c
  | .DirectedEnergyFire, b, c => DirectedEnergyFirePdu.assign b c
  | .EntityDamageStatus, b, c => EntityDamageStatusPdu.assign b c
  | _, _, c => c

/-- The ways to come by a `ModulationParameters`, whose only field is private
(src/common/data_types/modulation_parameters.rs:12): the constructor, `Default`, the decoders, by itself or as a field of a
transmitter PDU. -/
inductive ModulationParameters.Obtainable : ModulationParameters → Prop
  /-- src/common/data_types/modulation_parameters.rs:17-21 -/
  | new : Obtainable ModulationParameters.new
  /-- src/common/data_types/modulation_parameters.rs:10 -/
  | default : Obtainable dflt
  /-- src/common/data_types/modulation_parameters.rs:29-42 -/
  | deserialize {n : UInt8} {prof : Profile} {b : Bytes} {x rest} :
      ModulationParameters.deserialize n prof b = .ok (some x, rest) → Obtainable x
  /-- src/common/data_types/modulation_parameters.rs:51-56 -/
  | deserializeField {prof : Profile} {b : Bytes} {x rest} :
      (deserialize_field : Get ModulationParameters) prof b = .ok (x, rest) → Obtainable x
  /-- src/common/data_types/modulation_parameters.rs:58-64 -/
  | withLen {n : Nat} {prof : Profile} {b : Bytes} {x rest} :
      (deserialize_with_len n : Get ModulationParameters) prof b = .ok (x, rest) → Obtainable x
  /-- src/pdu_macro.rs:35-48 -/
  | optWithLen {n : Nat} {prof : Profile} {b : Bytes} {x rest} :
      (deserialize_with_len n : Get (Option ModulationParameters)) prof b = .ok (some x, rest) → Obtainable x
  /-- src/pdu_macro.rs:326-343 and the public field at src/radio_communications.rs:60 -/
  | ofPdu {prof : Profile} {b : Bytes} {p : Pdu TransmitterPdu} {x rest} :
      (Pdu.deserialize : Get (Except DISError (Pdu TransmitterPdu))) prof b = .ok (.ok p, rest) →
      p.body.modulation_parameters = some x → Obtainable x
  /-- src/pdu_macro.rs:345-350 and the public field at src/radio_communications.rs:60 -/
  | ofBody {prof : Profile} {b : Bytes} {hd : PduHeader} {p : Pdu TransmitterPdu} {x rest} :
      (Pdu.deserialize_without_header hd : Get (Except DISError (Pdu TransmitterPdu))) prof b = .ok (.ok p, rest) →
      p.body.modulation_parameters = some x → Obtainable x

/-- The ways to come by an `AntennaPattern`, whose only field is private (src/common/data_types/antenna_pattern.rs:10).  No
decoded PDU contains one (C48_transmitter_decode). -/
inductive AntennaPattern.Obtainable : AntennaPattern → Prop
  /-- src/common/data_types/antenna_pattern.rs:40-44 -/
  | new : Obtainable AntennaPattern.new
  /-- src/common/data_types/antenna_pattern.rs:8 -/
  | default : Obtainable dflt
  /-- src/common/data_types/antenna_pattern.rs:52-65 -/
  | deserialize {n : UInt16} {prof : Profile} {b : Bytes} {x rest} :
      AntennaPattern.deserialize n prof b = .ok (some x, rest) → Obtainable x
  /-- src/common/data_types/antenna_pattern.rs:19-23 -/
  | deserializeField {prof : Profile} {b : Bytes} {x rest} :
      (deserialize_field : Get AntennaPattern) prof b = .ok (x, rest) → Obtainable x
  /-- src/common/data_types/antenna_pattern.rs:25-30 -/
  | withLen {n : Nat} {prof : Profile} {b : Bytes} {x rest} :
      (deserialize_with_len n : Get AntennaPattern) prof b = .ok (x, rest) → Obtainable x
  /-- src/pdu_macro.rs:35-48 -/
  | optWithLen {n : Nat} {prof : Profile} {b : Bytes} {x rest} :
      (deserialize_with_len n : Get (Option AntennaPattern)) prof b = .ok (some x, rest) → Obtainable x

/-- The values that a program can put into the public fields of a PDU of kind `k`: any, but that modulation parameters and
antenna patterns have to be come by; those two types occur in the transmitter PDU only (src/radio_communications.rs:60-61). -/
def PduKind.Assignable : (k : PduKind) → k.Body → Prop
  | .Transmitter, (c : TransmitterPdu) =>
    (∀ x, c.modulation_parameters = some x → x.Obtainable) ∧ ∀ x, c.antenna_pattern = some x → x.Obtainable
  | _, _ => True

/-- The PDUs of kind `k` that a program can come by: from the constructors and decoders, by assigning public fields, by
assigning through `header_mut` (every header can be come by: it is decoded from its octets, C01), by `finalize` and by
`serialize`, whatever its outcome. -/
inductive PduKind.Obtainable (k : PduKind) : Pdu k.Body → Prop
  /-- src/pdu_macro.rs:360-366 -/
  | new (now : UInt32) : Obtainable k (Pdu.new now)
  /-- src/pdu_macro.rs:240-249 -/
  | default (now : UInt32) : Obtainable k (Pdu.default now)
  /-- src/pdu_macro.rs:326-343 -/
  | deserialize {prof : Profile} {b : Bytes} {p rest} :
      (Pdu.deserialize : Get (Except DISError (Pdu k.Body))) prof b = .ok (.ok p, rest) → Obtainable k p
  /-- src/pdu_macro.rs:345-350 -/
  | deserializeBody {prof : Profile} {b : Bytes} {hd : PduHeader} {p rest} :
      (Pdu.deserialize_without_header hd : Get (Except DISError (Pdu k.Body))) prof b = .ok (.ok p, rest) → Obtainable k p
  /-- src/pdu_macro.rs:235 -/
  | assign {p : Pdu k.Body} (c : k.Body) : Obtainable k p → k.Assignable c → Obtainable k ⟨p.header, k.assign p.body c⟩
  /-- src/pdu_macro.rs:297-299 -/
  | headerMut {p : Pdu k.Body} (hd : PduHeader) : Obtainable k p → Obtainable k ⟨hd, p.body⟩
  /-- src/common/pdu.rs:24-27 -/
  | finalize {p : Pdu k.Body} : Obtainable k p → Obtainable k p.finalize
  /-- src/pdu_macro.rs:301-324 -/
  | serialize {p : Pdu k.Body} : Obtainable k p → Obtainable k p.assigned.1

end Dis
