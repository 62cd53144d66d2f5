import Verif.Proofs.LegiblePdus1
import Verif.Proofs.LegiblePdus2
import Verif.Proofs.LegiblePdus3
/- Generated by tools/gen_printing.py: every kind. -/
namespace Dis

instance PduKind.legibleBody : (k : PduKind) → LegibleBody k.Body
  | .ElectromagneticEmissions => inferInstanceAs (LegibleBody ElectromagneticEmissionsPdu)
  | .Designator => inferInstanceAs (LegibleBody DesignatorPdu)
  | .UnderwaterAcoustic => inferInstanceAs (LegibleBody UnderwaterAcousticPdu)
  | .IFF => inferInstanceAs (LegibleBody IFFPdu)
  | .SupplementalEmission => inferInstanceAs (LegibleBody SupplementalEmissionPdu)
  | .EntityState => inferInstanceAs (LegibleBody EntityStatePdu)
  | .Collision => inferInstanceAs (LegibleBody CollisionPdu)
  | .CollisionElastic => inferInstanceAs (LegibleBody CollisionElasticPdu)
  | .EntityStateUpdate => inferInstanceAs (LegibleBody EntityStateUpdatePdu)
  | .Attribute => inferInstanceAs (LegibleBody AttributePdu)
  | .AggregateState => inferInstanceAs (LegibleBody AggregateStatePdu)
  | .IsGroupOf => inferInstanceAs (LegibleBody IsGroupOfPdu)
  | .TransferOwnership => inferInstanceAs (LegibleBody TransferOwnershipPdu)
  | .IsPartOf => inferInstanceAs (LegibleBody IsPartOfPdu)
  | .InformationOperationsReport => inferInstanceAs (LegibleBody InformationOperationsReportPdu)
  | .InformationOperationsAction => inferInstanceAs (LegibleBody InformationOperationsActionPdu)
  | .ServiceRequest => inferInstanceAs (LegibleBody ServiceRequestPdu)
  | .ResupplyOffer => inferInstanceAs (LegibleBody ResupplyOfferPdu)
  | .ResupplyReceived => inferInstanceAs (LegibleBody ResupplyReceivedPdu)
  | .ResupplyCancel => inferInstanceAs (LegibleBody ResupplyCancelPdu)
  | .RepairComplete => inferInstanceAs (LegibleBody RepairCompletePdu)
  | .RepairResponse => inferInstanceAs (LegibleBody RepairResponsePdu)
  | .MinefieldState => inferInstanceAs (LegibleBody MinefieldStatePdu)
  | .MinefieldQuery => inferInstanceAs (LegibleBody MinefieldQueryPdu)
  | .MinefieldData => inferInstanceAs (LegibleBody MinefieldDataPdu)
  | .MinefieldResponseNack => inferInstanceAs (LegibleBody MinefieldResponseNackPdu)
  | .Transmitter => inferInstanceAs (LegibleBody TransmitterPdu)
  | .Signal => inferInstanceAs (LegibleBody SignalPdu)
  | .Receiver => inferInstanceAs (LegibleBody ReceiverPdu)
  | .IntercomSignal => inferInstanceAs (LegibleBody IntercomSignalPdu)
  | .IntercomControl => inferInstanceAs (LegibleBody IntercomControlPdu)
  | .CreateEntity => inferInstanceAs (LegibleBody CreateEntityPdu)
  | .RemoveEntity => inferInstanceAs (LegibleBody RemoveEntityPdu)
  | .StartResume => inferInstanceAs (LegibleBody StartResumePdu)
  | .StopFreeze => inferInstanceAs (LegibleBody StopFreezePdu)
  | .Acknowledge => inferInstanceAs (LegibleBody AcknowledgePdu)
  | .ActionRequest => inferInstanceAs (LegibleBody ActionRequestPdu)
  | .ActionResponse => inferInstanceAs (LegibleBody ActionResponsePdu)
  | .DataQuery => inferInstanceAs (LegibleBody DataQueryPdu)
  | .SetData => inferInstanceAs (LegibleBody SetDataPdu)
  | .Data => inferInstanceAs (LegibleBody DataPdu)
  | .EventReport => inferInstanceAs (LegibleBody EventReportPdu)
  | .Comment => inferInstanceAs (LegibleBody CommentPdu)
  | .CreateEntityReliable => inferInstanceAs (LegibleBody CreateEntityReliablePdu)
  | .RemoveEntityReliable => inferInstanceAs (LegibleBody RemoveEntityReliablePdu)
  | .StartResumeReliable => inferInstanceAs (LegibleBody StartResumeReliablePdu)
  | .StopFreezeReliable => inferInstanceAs (LegibleBody StopFreezeReliablePdu)
  | .AcknowledgeReliable => inferInstanceAs (LegibleBody AcknowledgeReliablePdu)
  | .ActionRequestReliable => inferInstanceAs (LegibleBody ActionRequestReliablePdu)
  | .ActionResponseReliable => inferInstanceAs (LegibleBody ActionResponseReliablePdu)
  | .DataQueryReliable => inferInstanceAs (LegibleBody DataQueryReliablePdu)
  | .SetDataReliable => inferInstanceAs (LegibleBody SetDataReliablePdu)
  | .DataReliable => inferInstanceAs (LegibleBody DataReliablePdu)
  | .EventReportReliable => inferInstanceAs (LegibleBody EventReportReliablePdu)
  | .CommentReliable => inferInstanceAs (LegibleBody CommentReliablePdu)
  | .RecordQueryReliable => inferInstanceAs (LegibleBody RecordQueryReliablePdu)
  | .SetRecordReliable => inferInstanceAs (LegibleBody SetRecordReliablePdu)
  | .EnvironmentalProcess => inferInstanceAs (LegibleBody EnvironmentalProcessPdu)
  | .GriddedData => inferInstanceAs (LegibleBody GriddedDataPdu)
  | .PointObjectState => inferInstanceAs (LegibleBody PointObjectStatePdu)
  | .LinearObjectState => inferInstanceAs (LegibleBody LinearObjectStatePdu)
  | .ArealObjectState => inferInstanceAs (LegibleBody ArealObjectStatePdu)
  | .Fire => inferInstanceAs (LegibleBody FirePdu)
  | .Detonation => inferInstanceAs (LegibleBody DetonationPdu)
  | .DirectedEnergyFire => inferInstanceAs (LegibleBody DirectedEnergyFirePdu)
  | .EntityDamageStatus => inferInstanceAs (LegibleBody EntityDamageStatusPdu)

instance : Plain AcousticEmitterSystem := ⟨fun x => by rfl⟩
instance : Plain AggregateId := ⟨fun x => by rfl⟩
instance : Plain AggregateMarking := ⟨fun x => by
  show ({ x with characters := calm x.characters } : AggregateMarking) = x
  rw [Plain.eq x.characters]⟩
instance : Plain AntennaPattern := ⟨fun x => by
  show ({ x with record_specific_fields := calm x.record_specific_fields } : AntennaPattern) = x
  rw [Plain.eq x.record_specific_fields]⟩
instance : Plain ApaData := ⟨fun x => by rfl⟩
instance : Plain AttributeRecord := ⟨fun x => by
  show ({ x with record_specific_fields := calm x.record_specific_fields } : AttributeRecord) = x
  rw [Plain.eq x.record_specific_fields]⟩
instance : Plain SimulationAddress := ⟨fun x => by rfl⟩
instance : Plain EntityId := ⟨fun x => by rfl⟩
instance : Plain AttributeRecordSet := ⟨fun x => by
  show ({ x with attribute_records := calm x.attribute_records } : AttributeRecordSet) = x
  rw [Plain.eq x.attribute_records]⟩
instance : Plain ClockTime := ⟨fun x => by rfl⟩
instance : Plain FixedDatumRecord := ⟨fun x => by rfl⟩
instance : Plain VariableDatumRecord := ⟨fun x => by
  show ({ x with value := calm x.value } : VariableDatumRecord) = x
  rw [Plain.eq x.value]⟩
instance : Plain EventId := ⟨fun x => by rfl⟩
instance : Plain TrackJamTarget := ⟨fun x => by rfl⟩
instance : Plain EmitterSystem := ⟨fun x => by rfl⟩
instance : Plain EntityMarking := ⟨fun x => by rfl⟩
instance : Plain EntityType := ⟨fun x => by rfl⟩
instance : Plain Environment := ⟨fun x => by rfl⟩
instance : Plain FundamentalOperationalData := ⟨fun x => by rfl⟩
instance : Plain IntercomCommunicationsParameters := ⟨fun x => by rfl⟩
instance : Plain LayerHeader := ⟨fun x => by rfl⟩
instance : Plain MinefieldIdentifier := ⟨fun x => by rfl⟩
instance : Plain ModulationParameters := ⟨fun x => by
  show ({ x with record_specific_fields := calm x.record_specific_fields } : ModulationParameters) = x
  rw [Plain.eq x.record_specific_fields]⟩
instance : Plain ModulationType := ⟨fun x => by rfl⟩
instance : Plain MunitionDescriptor := ⟨fun x => by rfl⟩
instance : Plain NamedLocation := ⟨fun x => by rfl⟩
instance : Plain ObjectIdentifier := ⟨fun x => by rfl⟩
instance : Plain ObjectType := ⟨fun x => by rfl⟩
instance : Plain RadioEntityType := ⟨fun x => by rfl⟩
instance : Plain RecordSpecificationElement := ⟨fun x => by
  show ({ x with record_values := calm x.record_values } : RecordSpecificationElement) = x
  rw [Plain.eq x.record_values]⟩
instance : Plain RecordSpecification := ⟨fun x => by
  show ({ x with record_sets := calm x.record_sets } : RecordSpecification) = x
  rw [Plain.eq x.record_sets]⟩
instance : Plain Relationship := ⟨fun x => by rfl⟩
instance : Plain SecondaryOperationalData := ⟨fun x => by rfl⟩
instance : Plain ShaftRPMs := ⟨fun x => by rfl⟩
instance : Plain SimulationIdentifier := ⟨fun x => by rfl⟩
instance : Plain StandardVariableRecords := ⟨fun x => by
  show ({ x with record_specific_fields := calm x.record_specific_fields } : StandardVariableRecords) = x
  rw [Plain.eq x.record_specific_fields]⟩
instance : Plain StandardVariableSpecification := ⟨fun x => by
  show ({ x with standard_variable_records := calm x.standard_variable_records } : StandardVariableSpecification) = x
  rw [Plain.eq x.standard_variable_records]⟩
instance : Plain SystemId := ⟨fun x => by rfl⟩
instance : Plain VariableTransmitterParameters := ⟨fun x => by
  show ({ x with record_specific_fields := calm x.record_specific_fields } : VariableTransmitterParameters) = x
  rw [Plain.eq x.record_specific_fields]⟩
instance : Plain UnderwaterAcousticPdu := ⟨fun x => by
  show ({ x with shaft_rpms := calm x.shaft_rpms, apa_data := calm x.apa_data, emitter_systems := calm x.emitter_systems } : UnderwaterAcousticPdu) = x
  rw [Plain.eq x.shaft_rpms, Plain.eq x.apa_data, Plain.eq x.emitter_systems]⟩
instance : Plain AttributePdu := ⟨fun x => by
  show ({ x with attribute_record_sets := calm x.attribute_record_sets } : AttributePdu) = x
  rw [Plain.eq x.attribute_record_sets]⟩
instance : Plain TransferOwnershipPdu := ⟨fun x => by
  show ({ x with record_information := calm x.record_information } : TransferOwnershipPdu) = x
  rw [Plain.eq x.record_information]⟩
instance : Plain InformationOperationsReportPdu := ⟨fun x => by
  show ({ x with io_records := calm x.io_records } : InformationOperationsReportPdu) = x
  rw [Plain.eq x.io_records]⟩
instance : Plain InformationOperationsActionPdu := ⟨fun x => by
  show ({ x with io_records := calm x.io_records } : InformationOperationsActionPdu) = x
  rw [Plain.eq x.io_records]⟩
instance : Plain ResupplyCancelPdu := ⟨fun x => by rfl⟩
instance : Plain RepairCompletePdu := ⟨fun x => by rfl⟩
instance : Plain RepairResponsePdu := ⟨fun x => by rfl⟩
instance : Plain MinefieldResponseNackPdu := ⟨fun x => by
  show ({ x with missing_pdu_sequence_numbers := calm x.missing_pdu_sequence_numbers } : MinefieldResponseNackPdu) = x
  rw [Plain.eq x.missing_pdu_sequence_numbers]⟩
instance : Plain SignalPdu := ⟨fun x => by
  show ({ x with data := calm x.data } : SignalPdu) = x
  rw [Plain.eq x.data]⟩
instance : Plain IntercomSignalPdu := ⟨fun x => by
  show ({ x with data := calm x.data } : IntercomSignalPdu) = x
  rw [Plain.eq x.data]⟩
instance : Plain IntercomControlPdu := ⟨fun x => by
  show ({ x with intercom_parameters := calm x.intercom_parameters } : IntercomControlPdu) = x
  rw [Plain.eq x.intercom_parameters]⟩
instance : Plain CreateEntityPdu := ⟨fun x => by rfl⟩
instance : Plain RemoveEntityPdu := ⟨fun x => by rfl⟩
instance : Plain StartResumePdu := ⟨fun x => by rfl⟩
instance : Plain StopFreezePdu := ⟨fun x => by rfl⟩
instance : Plain AcknowledgePdu := ⟨fun x => by rfl⟩
instance : Plain ActionRequestPdu := ⟨fun x => by
  show ({ x with fixed_datum_records := calm x.fixed_datum_records, variable_datum_records := calm x.variable_datum_records } : ActionRequestPdu) = x
  rw [Plain.eq x.fixed_datum_records, Plain.eq x.variable_datum_records]⟩
instance : Plain ActionResponsePdu := ⟨fun x => by
  show ({ x with fixed_datum_records := calm x.fixed_datum_records, variable_datum_records := calm x.variable_datum_records } : ActionResponsePdu) = x
  rw [Plain.eq x.fixed_datum_records, Plain.eq x.variable_datum_records]⟩
instance : Plain DataQueryPdu := ⟨fun x => by
  show ({ x with fixed_datum_records := calm x.fixed_datum_records, variable_datum_records := calm x.variable_datum_records } : DataQueryPdu) = x
  rw [Plain.eq x.fixed_datum_records, Plain.eq x.variable_datum_records]⟩
instance : Plain SetDataPdu := ⟨fun x => by
  show ({ x with fixed_datum_records := calm x.fixed_datum_records, variable_datum_records := calm x.variable_datum_records } : SetDataPdu) = x
  rw [Plain.eq x.fixed_datum_records, Plain.eq x.variable_datum_records]⟩
instance : Plain DataPdu := ⟨fun x => by
  show ({ x with fixed_datum_records := calm x.fixed_datum_records, variable_datum_records := calm x.variable_datum_records } : DataPdu) = x
  rw [Plain.eq x.fixed_datum_records, Plain.eq x.variable_datum_records]⟩
instance : Plain EventReportPdu := ⟨fun x => by
  show ({ x with fixed_datum_records := calm x.fixed_datum_records, variable_datum_records := calm x.variable_datum_records } : EventReportPdu) = x
  rw [Plain.eq x.fixed_datum_records, Plain.eq x.variable_datum_records]⟩
instance : Plain CommentPdu := ⟨fun x => by
  show ({ x with fixed_datum_records := calm x.fixed_datum_records, variable_datum_records := calm x.variable_datum_records } : CommentPdu) = x
  rw [Plain.eq x.fixed_datum_records, Plain.eq x.variable_datum_records]⟩
instance : Plain CreateEntityReliablePdu := ⟨fun x => by rfl⟩
instance : Plain RemoveEntityReliablePdu := ⟨fun x => by rfl⟩
instance : Plain StartResumeReliablePdu := ⟨fun x => by rfl⟩
instance : Plain StopFreezeReliablePdu := ⟨fun x => by rfl⟩
instance : Plain AcknowledgeReliablePdu := ⟨fun x => by rfl⟩
instance : Plain ActionRequestReliablePdu := ⟨fun x => by
  show ({ x with fixed_datum_records := calm x.fixed_datum_records, variable_datum_records := calm x.variable_datum_records } : ActionRequestReliablePdu) = x
  rw [Plain.eq x.fixed_datum_records, Plain.eq x.variable_datum_records]⟩
instance : Plain ActionResponseReliablePdu := ⟨fun x => by
  show ({ x with fixed_datum_records := calm x.fixed_datum_records, variable_datum_records := calm x.variable_datum_records } : ActionResponseReliablePdu) = x
  rw [Plain.eq x.fixed_datum_records, Plain.eq x.variable_datum_records]⟩
instance : Plain DataQueryReliablePdu := ⟨fun x => by
  show ({ x with fixed_datum_ids := calm x.fixed_datum_ids, variable_datum_ids := calm x.variable_datum_ids } : DataQueryReliablePdu) = x
  rw [Plain.eq x.fixed_datum_ids, Plain.eq x.variable_datum_ids]⟩
instance : Plain SetDataReliablePdu := ⟨fun x => by
  show ({ x with fixed_datum_records := calm x.fixed_datum_records, variable_datum_records := calm x.variable_datum_records } : SetDataReliablePdu) = x
  rw [Plain.eq x.fixed_datum_records, Plain.eq x.variable_datum_records]⟩
instance : Plain DataReliablePdu := ⟨fun x => by
  show ({ x with fixed_datum_records := calm x.fixed_datum_records, variable_datum_records := calm x.variable_datum_records } : DataReliablePdu) = x
  rw [Plain.eq x.fixed_datum_records, Plain.eq x.variable_datum_records]⟩
instance : Plain EventReportReliablePdu := ⟨fun x => by
  show ({ x with fixed_datum_records := calm x.fixed_datum_records, variable_datum_records := calm x.variable_datum_records } : EventReportReliablePdu) = x
  rw [Plain.eq x.fixed_datum_records, Plain.eq x.variable_datum_records]⟩
instance : Plain CommentReliablePdu := ⟨fun x => by
  show ({ x with fixed_datum_records := calm x.fixed_datum_records, variable_datum_records := calm x.variable_datum_records } : CommentReliablePdu) = x
  rw [Plain.eq x.fixed_datum_records, Plain.eq x.variable_datum_records]⟩
instance : Plain RecordQueryReliablePdu := ⟨fun x => by
  show ({ x with record_ids := calm x.record_ids } : RecordQueryReliablePdu) = x
  rw [Plain.eq x.record_ids]⟩
instance : Plain SetRecordReliablePdu := ⟨fun x => by
  show ({ x with record_sets := calm x.record_sets } : SetRecordReliablePdu) = x
  rw [Plain.eq x.record_sets]⟩
instance : Plain EnvironmentalProcessPdu := ⟨fun x => by
  show ({ x with environment_records := calm x.environment_records } : EnvironmentalProcessPdu) = x
  rw [Plain.eq x.environment_records]⟩

theorem PduKind.plain (k : PduKind) (hk : k.hasFloats = false) (b : k.Body) : calm b = b := by
  cases k
  case UnderwaterAcoustic => exact Plain.eq (α := UnderwaterAcousticPdu) b
  case Attribute => exact Plain.eq (α := AttributePdu) b
  case TransferOwnership => exact Plain.eq (α := TransferOwnershipPdu) b
  case InformationOperationsReport => exact Plain.eq (α := InformationOperationsReportPdu) b
  case InformationOperationsAction => exact Plain.eq (α := InformationOperationsActionPdu) b
  case ResupplyCancel => exact Plain.eq (α := ResupplyCancelPdu) b
  case RepairComplete => exact Plain.eq (α := RepairCompletePdu) b
  case RepairResponse => exact Plain.eq (α := RepairResponsePdu) b
  case MinefieldResponseNack => exact Plain.eq (α := MinefieldResponseNackPdu) b
  case Signal => exact Plain.eq (α := SignalPdu) b
  case IntercomSignal => exact Plain.eq (α := IntercomSignalPdu) b
  case IntercomControl => exact Plain.eq (α := IntercomControlPdu) b
  case CreateEntity => exact Plain.eq (α := CreateEntityPdu) b
  case RemoveEntity => exact Plain.eq (α := RemoveEntityPdu) b
  case StartResume => exact Plain.eq (α := StartResumePdu) b
  case StopFreeze => exact Plain.eq (α := StopFreezePdu) b
  case Acknowledge => exact Plain.eq (α := AcknowledgePdu) b
  case ActionRequest => exact Plain.eq (α := ActionRequestPdu) b
  case ActionResponse => exact Plain.eq (α := ActionResponsePdu) b
  case DataQuery => exact Plain.eq (α := DataQueryPdu) b
  case SetData => exact Plain.eq (α := SetDataPdu) b
  case Data => exact Plain.eq (α := DataPdu) b
  case EventReport => exact Plain.eq (α := EventReportPdu) b
  case Comment => exact Plain.eq (α := CommentPdu) b
  case CreateEntityReliable => exact Plain.eq (α := CreateEntityReliablePdu) b
  case RemoveEntityReliable => exact Plain.eq (α := RemoveEntityReliablePdu) b
  case StartResumeReliable => exact Plain.eq (α := StartResumeReliablePdu) b
  case StopFreezeReliable => exact Plain.eq (α := StopFreezeReliablePdu) b
  case AcknowledgeReliable => exact Plain.eq (α := AcknowledgeReliablePdu) b
  case ActionRequestReliable => exact Plain.eq (α := ActionRequestReliablePdu) b
  case ActionResponseReliable => exact Plain.eq (α := ActionResponseReliablePdu) b
  case DataQueryReliable => exact Plain.eq (α := DataQueryReliablePdu) b
  case SetDataReliable => exact Plain.eq (α := SetDataReliablePdu) b
  case DataReliable => exact Plain.eq (α := DataReliablePdu) b
  case EventReportReliable => exact Plain.eq (α := EventReportReliablePdu) b
  case CommentReliable => exact Plain.eq (α := CommentReliablePdu) b
  case RecordQueryReliable => exact Plain.eq (α := RecordQueryReliablePdu) b
  case SetRecordReliable => exact Plain.eq (α := SetRecordReliablePdu) b
  case EnvironmentalProcess => exact Plain.eq (α := EnvironmentalProcessPdu) b
  all_goals exact absurd hk (by decide)

end Dis
