import Verif.Proofs.LegibleHeaders
import Verif.Model.PrintedRecords
import Verif.Spec.CalmRecords
/- Generated by tools/gen_printing.py: the texts of the headers and records can be read back. -/
set_option maxRecDepth 4000
namespace Dis

instance : Named ProtocolVersion.spec := named_of_mem (List.mem_of_getElem? (i := 0) rfl)
instance : Named PduType.spec := named_of_mem (List.mem_of_getElem? (i := 1) rfl)
instance : Named ProtocolFamily.spec := named_of_mem (List.mem_of_getElem? (i := 2) rfl)
instance : Named DISLiveEntitySubprotocolNumber.spec := named_of_mem (List.mem_of_getElem? (i := 295) rfl)
instance : Named UAAcousticSystemName.spec := named_of_mem (List.mem_of_getElem? (i := 87) rfl)
instance : Named UAAcousticEmitterSystemFunction.spec := named_of_mem (List.mem_of_getElem? (i := 88) rfl)
instance : Named DeadReckoningAlgorithm.spec := named_of_mem (List.mem_of_getElem? (i := 26) rfl)
instance : Named ComponentIdentification.spec := named_of_mem (List.mem_of_getElem? (i := 193) rfl)
instance : Named ComponentDamageStatus.spec := named_of_mem (List.mem_of_getElem? (i := 194) rfl)
instance : Named ComponentVisualSmokeColor.spec := named_of_mem (List.mem_of_getElem? (i := 195) rfl)
instance : Named EmitterName.spec := named_of_mem (List.mem_of_getElem? (i := 47) rfl)
instance : Named EmitterSystemFunction.spec := named_of_mem (List.mem_of_getElem? (i := 48) rfl)
instance : Named EntityMarkingCharacterSet.spec := named_of_mem (List.mem_of_getElem? (i := 27) rfl)
instance : Named EntityKind.spec := named_of_mem (List.mem_of_getElem? (i := 4) rfl)
instance : Named Country.spec := named_of_mem (List.mem_of_getElem? (i := 25) rfl)
instance : Named GridAxisDescriptorAxisType.spec := named_of_mem (List.mem_of_getElem? (i := 255) rfl)
instance : Named GriddedDataSampleType.spec := named_of_mem (List.mem_of_getElem? (i := 147) rfl)
instance : Named GriddedDataDataRepresentation.spec := named_of_mem (List.mem_of_getElem? (i := 148) rfl)
instance : Named VariableParameterRecordType.spec := named_of_mem (List.mem_of_getElem? (i := 29) rfl)
instance : Named EEAttributeStateIndicator.spec := named_of_mem (List.mem_of_getElem? (i := 180) rfl)
instance : Named DesignatorSystemName.spec := named_of_mem (List.mem_of_getElem? (i := 52) rfl)
instance : Named DesignatorCode.spec := named_of_mem (List.mem_of_getElem? (i := 53) rfl)
instance : Named UAStateChangeUpdateIndicator.spec := named_of_mem (List.mem_of_getElem? (i := 86) rfl)
instance : Named UAPassiveParameterIndex.spec := named_of_mem (List.mem_of_getElem? (i := 91) rfl)
instance : Named ForceId.spec := named_of_mem (List.mem_of_getElem? (i := 3) rfl)
instance : Named EntityCapabilities.spec := named_of_mem (List.mem_of_getElem? (i := 28) rfl)
instance : Named DISAttributeActionCode.spec := named_of_mem (List.mem_of_getElem? (i := 175) rfl)
instance : Named AggregateStateAggregateState.spec := named_of_mem (List.mem_of_getElem? (i := 133) rfl)
instance : Named AggregateStateFormation.spec := named_of_mem (List.mem_of_getElem? (i := 134) rfl)
instance : Named IsGroupOfGroupedEntityCategory.spec := named_of_mem (List.mem_of_getElem? (i := 141) rfl)
instance : Named RequiredReliabilityService.spec := named_of_mem (List.mem_of_getElem? (i := 46) rfl)
instance : Named TransferControlTransferType.spec := named_of_mem (List.mem_of_getElem? (i := 143) rfl)
instance : Named IOActionIOSimulationSource.spec := named_of_mem (List.mem_of_getElem? (i := 166) rfl)
instance : Named IOReportIOReportType.spec := named_of_mem (List.mem_of_getElem? (i := 169) rfl)
instance : Named IOActionIOWarfareType.spec := named_of_mem (List.mem_of_getElem? (i := 165) rfl)
instance : Named IOActionIOActionType.spec := named_of_mem (List.mem_of_getElem? (i := 167) rfl)
instance : Named IOActionIOActionPhase.spec := named_of_mem (List.mem_of_getElem? (i := 168) rfl)
instance : Named ServiceRequestServiceTypeRequested.spec := named_of_mem (List.mem_of_getElem? (i := 36) rfl)
instance : Named RepairCompleteRepair.spec := named_of_mem (List.mem_of_getElem? (i := 37) rfl)
instance : Named RepairResponseRepairResult.spec := named_of_mem (List.mem_of_getElem? (i := 38) rfl)
instance : Named MinefieldStateProtocolMode.spec := named_of_mem (List.mem_of_getElem? (i := 214) rfl)
instance : Named MinefieldSensorTypes.spec := named_of_mem (List.mem_of_getElem? (i := 124) rfl)
instance : Named TransmitterTransmitState.spec := named_of_mem (List.mem_of_getElem? (i := 102) rfl)
instance : Named TransmitterInputSource.spec := named_of_mem (List.mem_of_getElem? (i := 103) rfl)
instance : Named TransmitterAntennaPatternType.spec := named_of_mem (List.mem_of_getElem? (i := 105) rfl)
instance : Named TransmitterCryptoSystem.spec := named_of_mem (List.mem_of_getElem? (i := 104) rfl)
instance : Named SignalTDLType.spec := named_of_mem (List.mem_of_getElem? (i := 115) rfl)
instance : Named ReceiverReceiverState.spec := named_of_mem (List.mem_of_getElem? (i := 116) rfl)
instance : Named IntercomControlControlType.spec := named_of_mem (List.mem_of_getElem? (i := 117) rfl)
instance : Named IntercomControlTransmitLineState.spec := named_of_mem (List.mem_of_getElem? (i := 120) rfl)
instance : Named IntercomControlCommand.spec := named_of_mem (List.mem_of_getElem? (i := 119) rfl)
instance : Named Reason.spec := named_of_mem (List.mem_of_getElem? (i := 40) rfl)
instance : Named AcknowledgeFlag.spec := named_of_mem (List.mem_of_getElem? (i := 41) rfl)
instance : Named AcknowledgeResponseFlag.spec := named_of_mem (List.mem_of_getElem? (i := 42) rfl)
instance : Named ActionResponseRequestStatus.spec := named_of_mem (List.mem_of_getElem? (i := 44) rfl)
instance : Named EventType.spec := named_of_mem (List.mem_of_getElem? (i := 45) rfl)
instance : Named VariableRecordTypes.spec := named_of_mem (List.mem_of_getElem? (i := 39) rfl)
instance : Named RecordQueryREventType.spec := named_of_mem (List.mem_of_getElem? (i := 212) rfl)
instance : Named GriddedDataCoordinateSystem.spec := named_of_mem (List.mem_of_getElem? (i := 145) rfl)
instance : Named GriddedDataConstantGrid.spec := named_of_mem (List.mem_of_getElem? (i := 146) rfl)
instance : Named DetonationResult.spec := named_of_mem (List.mem_of_getElem? (i := 35) rfl)
instance : Named DEFirePulseShape.spec := named_of_mem (List.mem_of_getElem? (i := 192) rfl)

instance : Legible PduHeader where
  starts _ _ := structText_starts (by decide +kernel) _
  line hσ ha x := structText_line ha (by decide +kernel) <|
    field_line (by decide +kernel) (Legible.line hσ ha x.protocol_version) <|
    field_line (by decide +kernel) (Legible.line hσ ha x.exercise_id) <|
    field_line (by decide +kernel) (Legible.line hσ ha x.pdu_type) <|
    field_line (by decide +kernel) (Legible.line hσ ha x.protocol_family) <|
    field_line (by decide +kernel) (Legible.line hσ ha x.timestamp) <|
    field_line (by decide +kernel) (Legible.line hσ ha x.length) <|
    field_line (by decide +kernel) (Legible.line hσ ha x.status_record) <|
    field_line (by decide +kernel) (Legible.line hσ ha x.padding) <|
    no_field_line
  same {σ} hσ x := by
    show structText σ "PduHeader" [
    ("protocol_version", text σ (calm x.protocol_version)), ("exercise_id", text σ (calm x.exercise_id)),
  ("pdu_type", text σ (calm x.pdu_type)), ("protocol_family", text σ (calm x.protocol_family)),
  ("timestamp", text σ (calm x.timestamp)), ("length", text σ (calm x.length)),
  ("status_record", text σ (calm x.status_record)), ("padding", text σ (calm x.padding))] =
      structText σ "PduHeader" [
    ("protocol_version", text σ x.protocol_version), ("exercise_id", text σ x.exercise_id),
  ("pdu_type", text σ x.pdu_type), ("protocol_family", text σ x.protocol_family),
  ("timestamp", text σ x.timestamp), ("length", text σ x.length), ("status_record", text σ x.status_record),
  ("padding", text σ x.padding)]
    simp only [Legible.same hσ]
  reads {σ} hσ {x y r r'} _ _ h := by
    have h : structText σ "PduHeader" [
    ("protocol_version", text σ x.protocol_version), ("exercise_id", text σ x.exercise_id),
  ("pdu_type", text σ x.pdu_type), ("protocol_family", text σ x.protocol_family),
  ("timestamp", text σ x.timestamp), ("length", text σ x.length), ("status_record", text σ x.status_record),
  ("padding", text σ x.padding)] ++ r =
      structText σ "PduHeader" [
    ("protocol_version", text σ y.protocol_version), ("exercise_id", text σ y.exercise_id),
  ("pdu_type", text σ y.pdu_type), ("protocol_family", text σ y.protocol_family),
  ("timestamp", text σ y.timestamp), ("length", text σ y.length), ("status_record", text σ y.status_record),
  ("padding", text σ y.padding)] ++ r' := h
    obtain ⟨h1, h⟩ := read_first hσ (x := x.protocol_version) (y := y.protocol_version) h
    obtain ⟨h2, h⟩ := read_next hσ (x := x.exercise_id) (y := y.exercise_id) h
    obtain ⟨h3, h⟩ := read_next hσ (x := x.pdu_type) (y := y.pdu_type) h
    obtain ⟨h4, h⟩ := read_next hσ (x := x.protocol_family) (y := y.protocol_family) h
    obtain ⟨h5, h⟩ := read_next hσ (x := x.timestamp) (y := y.timestamp) h
    obtain ⟨h6, h⟩ := read_next hσ (x := x.length) (y := y.length) h
    obtain ⟨h7, h⟩ := read_next hσ (x := x.status_record) (y := y.status_record) h
    obtain ⟨h8, h⟩ := read_next hσ (x := x.padding) (y := y.padding) h
    refine ⟨?_, read_end h⟩
    show PduHeader.mk (calm x.protocol_version) (calm x.exercise_id) (calm x.pdu_type) (calm x.protocol_family) (calm
      x.timestamp) (calm x.length) (calm x.status_record) (calm x.padding) = PduHeader.mk (calm y.protocol_version)
      (calm y.exercise_id) (calm y.pdu_type) (calm y.protocol_family) (calm y.timestamp) (calm y.length) (calm
      y.status_record) (calm y.padding)
    rw [h1, h2, h3, h4, h5, h6, h7, h8]
instance : Legible LiveEntityPduHeader where
  starts _ _ := structText_starts (by decide +kernel) _
  line hσ ha x := structText_line ha (by decide +kernel) <|
    field_line (by decide +kernel) (Legible.line hσ ha x.protocol_version) <|
    field_line (by decide +kernel) (Legible.line hσ ha x.exercise_id) <|
    field_line (by decide +kernel) (Legible.line hσ ha x.pdu_type) <|
    field_line (by decide +kernel) (Legible.line hσ ha x.protocol_family) <|
    field_line (by decide +kernel) (Legible.line hσ ha x.timestamp) <|
    field_line (by decide +kernel) (Legible.line hσ ha x.length) <|
    field_line (by decide +kernel) (Legible.line hσ ha x.subprotocol_number) <|
    field_line (by decide +kernel) (Legible.line hσ ha x.padding) <|
    no_field_line
  same _ _ := rfl
  reads {σ} hσ {x y r r'} _ _ h := by
    have h : structText σ "LiveEntityPduHeader" [
    ("protocol_version", text σ x.protocol_version), ("exercise_id", text σ x.exercise_id),
  ("pdu_type", text σ x.pdu_type), ("protocol_family", text σ x.protocol_family),
  ("timestamp", text σ x.timestamp), ("length", text σ x.length),
  ("subprotocol_number", text σ x.subprotocol_number), ("padding", text σ x.padding)] ++ r =
      structText σ "LiveEntityPduHeader" [
    ("protocol_version", text σ y.protocol_version), ("exercise_id", text σ y.exercise_id),
  ("pdu_type", text σ y.pdu_type), ("protocol_family", text σ y.protocol_family),
  ("timestamp", text σ y.timestamp), ("length", text σ y.length),
  ("subprotocol_number", text σ y.subprotocol_number), ("padding", text σ y.padding)] ++ r' := h
    obtain ⟨h1, h⟩ := read_first hσ (x := x.protocol_version) (y := y.protocol_version) h
    obtain ⟨h2, h⟩ := read_next hσ (x := x.exercise_id) (y := y.exercise_id) h
    obtain ⟨h3, h⟩ := read_next hσ (x := x.pdu_type) (y := y.pdu_type) h
    obtain ⟨h4, h⟩ := read_next hσ (x := x.protocol_family) (y := y.protocol_family) h
    obtain ⟨h5, h⟩ := read_next hσ (x := x.timestamp) (y := y.timestamp) h
    obtain ⟨h6, h⟩ := read_next hσ (x := x.length) (y := y.length) h
    obtain ⟨h7, h⟩ := read_next hσ (x := x.subprotocol_number) (y := y.subprotocol_number) h
    obtain ⟨h8, h⟩ := read_next hσ (x := x.padding) (y := y.padding) h
    refine ⟨?_, read_end h⟩
    show LiveEntityPduHeader.mk (calm x.protocol_version) (calm x.exercise_id) (calm x.pdu_type) (calm
      x.protocol_family) (calm x.timestamp) (calm x.length) (calm x.subprotocol_number) (calm x.padding) =
      LiveEntityPduHeader.mk (calm y.protocol_version) (calm y.exercise_id) (calm y.pdu_type) (calm y.protocol_family)
      (calm y.timestamp) (calm y.length) (calm y.subprotocol_number) (calm y.padding)
    rw [h1, h2, h3, h4, h5, h6, h7, h8]
instance : Legible AcousticBeamFundamentalParameter where
  starts _ _ := structText_starts (by decide +kernel) _
  line hσ ha x := structText_line ha (by decide +kernel) <|
    field_line (by decide +kernel) (Legible.line hσ ha x.active_emission_parameter_index) <|
    field_line (by decide +kernel) (Legible.line hσ ha x.scan_pattern) <|
    field_line (by decide +kernel) (Legible.line hσ ha x.beam_center_azimuth) <|
    field_line (by decide +kernel) (Legible.line hσ ha x.azimuthal_beamwidth) <|
    field_line (by decide +kernel) (Legible.line hσ ha x.beam_center_de) <|
    field_line (by decide +kernel) (Legible.line hσ ha x.de_beamwidth) <|
    no_field_line
  same {σ} hσ x := by
    show structText σ "AcousticBeamFundamentalParameter" [
    ("active_emission_parameter_index", text σ (calm x.active_emission_parameter_index)),
  ("scan_pattern", text σ (calm x.scan_pattern)), ("beam_center_azimuth", text σ (calm x.beam_center_azimuth)),
  ("azimuthal_beamwidth", text σ (calm x.azimuthal_beamwidth)), ("beam_center_de", text σ (calm x.beam_center_de)),
  ("de_beamwidth", text σ (calm x.de_beamwidth))] =
      structText σ "AcousticBeamFundamentalParameter" [
    ("active_emission_parameter_index", text σ x.active_emission_parameter_index),
  ("scan_pattern", text σ x.scan_pattern), ("beam_center_azimuth", text σ x.beam_center_azimuth),
  ("azimuthal_beamwidth", text σ x.azimuthal_beamwidth), ("beam_center_de", text σ x.beam_center_de),
  ("de_beamwidth", text σ x.de_beamwidth)]
    simp only [Legible.same hσ]
  reads {σ} hσ {x y r r'} _ _ h := by
    have h : structText σ "AcousticBeamFundamentalParameter" [
    ("active_emission_parameter_index", text σ x.active_emission_parameter_index),
  ("scan_pattern", text σ x.scan_pattern), ("beam_center_azimuth", text σ x.beam_center_azimuth),
  ("azimuthal_beamwidth", text σ x.azimuthal_beamwidth), ("beam_center_de", text σ x.beam_center_de),
  ("de_beamwidth", text σ x.de_beamwidth)] ++ r =
      structText σ "AcousticBeamFundamentalParameter" [
    ("active_emission_parameter_index", text σ y.active_emission_parameter_index),
  ("scan_pattern", text σ y.scan_pattern), ("beam_center_azimuth", text σ y.beam_center_azimuth),
  ("azimuthal_beamwidth", text σ y.azimuthal_beamwidth), ("beam_center_de", text σ y.beam_center_de),
  ("de_beamwidth", text σ y.de_beamwidth)] ++ r' := h
    obtain ⟨h1, h⟩ := read_first hσ (x := x.active_emission_parameter_index) (y := y.active_emission_parameter_index) h
    obtain ⟨h2, h⟩ := read_next hσ (x := x.scan_pattern) (y := y.scan_pattern) h
    obtain ⟨h3, h⟩ := read_next hσ (x := x.beam_center_azimuth) (y := y.beam_center_azimuth) h
    obtain ⟨h4, h⟩ := read_next hσ (x := x.azimuthal_beamwidth) (y := y.azimuthal_beamwidth) h
    obtain ⟨h5, h⟩ := read_next hσ (x := x.beam_center_de) (y := y.beam_center_de) h
    obtain ⟨h6, h⟩ := read_next hσ (x := x.de_beamwidth) (y := y.de_beamwidth) h
    refine ⟨?_, read_end h⟩
    show AcousticBeamFundamentalParameter.mk (calm x.active_emission_parameter_index) (calm x.scan_pattern) (calm
      x.beam_center_azimuth) (calm x.azimuthal_beamwidth) (calm x.beam_center_de) (calm x.de_beamwidth) =
      AcousticBeamFundamentalParameter.mk (calm y.active_emission_parameter_index) (calm y.scan_pattern) (calm
      y.beam_center_azimuth) (calm y.azimuthal_beamwidth) (calm y.beam_center_de) (calm y.de_beamwidth)
    rw [h1, h2, h3, h4, h5, h6]
instance : Legible AcousticBeamData where
  starts _ _ := structText_starts (by decide +kernel) _
  line hσ ha x := structText_line ha (by decide +kernel) <|
    field_line (by decide +kernel) (Legible.line hσ ha x.beam_data_length) <|
    field_line (by decide +kernel) (Legible.line hσ ha x.beam_id_number) <|
    field_line (by decide +kernel) (Legible.line hσ ha x.pad2) <|
    field_line (by decide +kernel) (Legible.line hσ ha x.fundamental_data_parameters) <|
    no_field_line
  same {σ} hσ x := by
    show structText σ "AcousticBeamData" [
    ("beam_data_length", text σ (calm x.beam_data_length)), ("beam_id_number", text σ (calm x.beam_id_number)),
  ("pad2", text σ (calm x.pad2)), ("fundamental_data_parameters", text σ (calm x.fundamental_data_parameters))] =
      structText σ "AcousticBeamData" [
    ("beam_data_length", text σ x.beam_data_length), ("beam_id_number", text σ x.beam_id_number),
  ("pad2", text σ x.pad2), ("fundamental_data_parameters", text σ x.fundamental_data_parameters)]
    simp only [Legible.same hσ]
  reads {σ} hσ {x y r r'} _ _ h := by
    have h : structText σ "AcousticBeamData" [
    ("beam_data_length", text σ x.beam_data_length), ("beam_id_number", text σ x.beam_id_number),
  ("pad2", text σ x.pad2), ("fundamental_data_parameters", text σ x.fundamental_data_parameters)] ++ r =
      structText σ "AcousticBeamData" [
    ("beam_data_length", text σ y.beam_data_length), ("beam_id_number", text σ y.beam_id_number),
  ("pad2", text σ y.pad2), ("fundamental_data_parameters", text σ y.fundamental_data_parameters)] ++ r' := h
    obtain ⟨h1, h⟩ := read_first hσ (x := x.beam_data_length) (y := y.beam_data_length) h
    obtain ⟨h2, h⟩ := read_next hσ (x := x.beam_id_number) (y := y.beam_id_number) h
    obtain ⟨h3, h⟩ := read_next hσ (x := x.pad2) (y := y.pad2) h
    obtain ⟨h4, h⟩ := read_next hσ (x := x.fundamental_data_parameters) (y := y.fundamental_data_parameters) h
    refine ⟨?_, read_end h⟩
    show AcousticBeamData.mk (calm x.beam_data_length) (calm x.beam_id_number) (calm x.pad2) (calm
      x.fundamental_data_parameters) = AcousticBeamData.mk (calm y.beam_data_length) (calm y.beam_id_number) (calm
      y.pad2) (calm y.fundamental_data_parameters)
    rw [h1, h2, h3, h4]
instance : Legible AcousticEmitterSystem where
  starts _ _ := structText_starts (by decide +kernel) _
  line hσ ha x := structText_line ha (by decide +kernel) <|
    field_line (by decide +kernel) (Legible.line hσ ha x.acoustic_name) <|
    field_line (by decide +kernel) (Legible.line hσ ha x.acoustic_function) <|
    field_line (by decide +kernel) (Legible.line hσ ha x.acoustic_id) <|
    no_field_line
  same _ _ := rfl
  reads {σ} hσ {x y r r'} _ _ h := by
    have h : structText σ "AcousticEmitterSystem" [
    ("acoustic_name", text σ x.acoustic_name), ("acoustic_function", text σ x.acoustic_function),
  ("acoustic_id", text σ x.acoustic_id)] ++ r =
      structText σ "AcousticEmitterSystem" [
    ("acoustic_name", text σ y.acoustic_name), ("acoustic_function", text σ y.acoustic_function),
  ("acoustic_id", text σ y.acoustic_id)] ++ r' := h
    obtain ⟨h1, h⟩ := read_first hσ (x := x.acoustic_name) (y := y.acoustic_name) h
    obtain ⟨h2, h⟩ := read_next hσ (x := x.acoustic_function) (y := y.acoustic_function) h
    obtain ⟨h3, h⟩ := read_next hσ (x := x.acoustic_id) (y := y.acoustic_id) h
    refine ⟨?_, read_end h⟩
    show AcousticEmitterSystem.mk (calm x.acoustic_name) (calm x.acoustic_function) (calm x.acoustic_id) =
      AcousticEmitterSystem.mk (calm y.acoustic_name) (calm y.acoustic_function) (calm y.acoustic_id)
    rw [h1, h2, h3]
instance : Legible Vector3Float where
  starts _ _ := structText_starts (by decide +kernel) _
  line hσ ha x := structText_line ha (by decide +kernel) <|
    field_line (by decide +kernel) (Legible.line hσ ha x.x) <|
    field_line (by decide +kernel) (Legible.line hσ ha x.y) <|
    field_line (by decide +kernel) (Legible.line hσ ha x.z) <|
    no_field_line
  same {σ} hσ x := by
    show structText σ "Vector3Float" [
    ("x", text σ (calm x.x)), ("y", text σ (calm x.y)), ("z", text σ (calm x.z))] =
      structText σ "Vector3Float" [
    ("x", text σ x.x), ("y", text σ x.y), ("z", text σ x.z)]
    simp only [Legible.same hσ]
  reads {σ} hσ {x y r r'} _ _ h := by
    have h : structText σ "Vector3Float" [
    ("x", text σ x.x), ("y", text σ x.y), ("z", text σ x.z)] ++ r =
      structText σ "Vector3Float" [
    ("x", text σ y.x), ("y", text σ y.y), ("z", text σ y.z)] ++ r' := h
    obtain ⟨h1, h⟩ := read_first hσ (x := x.x) (y := y.x) h
    obtain ⟨h2, h⟩ := read_next hσ (x := x.y) (y := y.y) h
    obtain ⟨h3, h⟩ := read_next hσ (x := x.z) (y := y.z) h
    refine ⟨?_, read_end h⟩
    show Vector3Float.mk (calm x.x) (calm x.y) (calm x.z) = Vector3Float.mk (calm y.x) (calm y.y) (calm y.z)
    rw [h1, h2, h3]
instance : Legible AcousticEmitterSystemData where
  starts _ _ := structText_starts (by decide +kernel) _
  line hσ ha x := structText_line ha (by decide +kernel) <|
    field_line (by decide +kernel) (Legible.line hσ ha x.emitter_system_data_length) <|
    field_line (by decide +kernel) (Legible.line hσ ha x.number_of_beams) <|
    field_line (by decide +kernel) (Legible.line hσ ha x.pad2) <|
    field_line (by decide +kernel) (Legible.line hσ ha x.acoustic_emitter_system) <|
    field_line (by decide +kernel) (Legible.line hσ ha x.emitter_location) <|
    field_line (by decide +kernel) (Legible.line hσ ha x.beam_records) <|
    no_field_line
  same {σ} hσ x := by
    show structText σ "AcousticEmitterSystemData" [
    ("emitter_system_data_length", text σ (calm x.emitter_system_data_length)),
  ("number_of_beams", text σ (calm x.number_of_beams)), ("pad2", text σ (calm x.pad2)),
  ("acoustic_emitter_system", text σ (calm x.acoustic_emitter_system)),
  ("emitter_location", text σ (calm x.emitter_location)), ("beam_records", text σ (calm x.beam_records))] =
      structText σ "AcousticEmitterSystemData" [
    ("emitter_system_data_length", text σ x.emitter_system_data_length),
  ("number_of_beams", text σ x.number_of_beams), ("pad2", text σ x.pad2),
  ("acoustic_emitter_system", text σ x.acoustic_emitter_system), ("emitter_location", text σ x.emitter_location),
  ("beam_records", text σ x.beam_records)]
    simp only [Legible.same hσ]
  reads {σ} hσ {x y r r'} _ _ h := by
    have h : structText σ "AcousticEmitterSystemData" [
    ("emitter_system_data_length", text σ x.emitter_system_data_length),
  ("number_of_beams", text σ x.number_of_beams), ("pad2", text σ x.pad2),
  ("acoustic_emitter_system", text σ x.acoustic_emitter_system), ("emitter_location", text σ x.emitter_location),
  ("beam_records", text σ x.beam_records)] ++ r =
      structText σ "AcousticEmitterSystemData" [
    ("emitter_system_data_length", text σ y.emitter_system_data_length),
  ("number_of_beams", text σ y.number_of_beams), ("pad2", text σ y.pad2),
  ("acoustic_emitter_system", text σ y.acoustic_emitter_system), ("emitter_location", text σ y.emitter_location),
  ("beam_records", text σ y.beam_records)] ++ r' := h
    obtain ⟨h1, h⟩ := read_first hσ (x := x.emitter_system_data_length) (y := y.emitter_system_data_length) h
    obtain ⟨h2, h⟩ := read_next hσ (x := x.number_of_beams) (y := y.number_of_beams) h
    obtain ⟨h3, h⟩ := read_next hσ (x := x.pad2) (y := y.pad2) h
    obtain ⟨h4, h⟩ := read_next hσ (x := x.acoustic_emitter_system) (y := y.acoustic_emitter_system) h
    obtain ⟨h5, h⟩ := read_next hσ (x := x.emitter_location) (y := y.emitter_location) h
    obtain ⟨h6, h⟩ := read_next hσ (x := x.beam_records) (y := y.beam_records) h
    refine ⟨?_, read_end h⟩
    show AcousticEmitterSystemData.mk (calm x.emitter_system_data_length) (calm x.number_of_beams) (calm x.pad2) (calm
      x.acoustic_emitter_system) (calm x.emitter_location) (calm x.beam_records) = AcousticEmitterSystemData.mk (calm
      y.emitter_system_data_length) (calm y.number_of_beams) (calm y.pad2) (calm y.acoustic_emitter_system) (calm
      y.emitter_location) (calm y.beam_records)
    rw [h1, h2, h3, h4, h5, h6]
instance : Legible AggregateId where
  starts _ _ := structText_starts (by decide +kernel) _
  line hσ ha x := structText_line ha (by decide +kernel) <|
    field_line (by decide +kernel) (Legible.line hσ ha x.site) <|
    field_line (by decide +kernel) (Legible.line hσ ha x.application) <|
    field_line (by decide +kernel) (Legible.line hσ ha x.aggregate_id) <|
    no_field_line
  same _ _ := rfl
  reads {σ} hσ {x y r r'} _ _ h := by
    have h : structText σ "AggregateId" [
    ("site", text σ x.site), ("application", text σ x.application), ("aggregate_id", text σ x.aggregate_id)] ++ r =
      structText σ "AggregateId" [
    ("site", text σ y.site), ("application", text σ y.application), ("aggregate_id", text σ y.aggregate_id)] ++ r' := h
    obtain ⟨h1, h⟩ := read_first hσ (x := x.site) (y := y.site) h
    obtain ⟨h2, h⟩ := read_next hσ (x := x.application) (y := y.application) h
    obtain ⟨h3, h⟩ := read_next hσ (x := x.aggregate_id) (y := y.aggregate_id) h
    refine ⟨?_, read_end h⟩
    show AggregateId.mk (calm x.site) (calm x.application) (calm x.aggregate_id) = AggregateId.mk (calm y.site) (calm
      y.application) (calm y.aggregate_id)
    rw [h1, h2, h3]
instance : Legible AggregateMarking where
  starts _ _ := structText_starts (by decide +kernel) _
  line hσ ha x := structText_line ha (by decide +kernel) <|
    field_line (by decide +kernel) (Legible.line hσ ha x.character_set) <|
    field_line (by decide +kernel) (Legible.line hσ ha x.characters) <|
    no_field_line
  same {σ} hσ x := by
    show structText σ "AggregateMarking" [
    ("character_set", text σ (calm x.character_set)), ("characters", text σ (calm x.characters))] =
      structText σ "AggregateMarking" [
    ("character_set", text σ x.character_set), ("characters", text σ x.characters)]
    simp only [Legible.same hσ]
  reads {σ} hσ {x y r r'} _ _ h := by
    have h : structText σ "AggregateMarking" [
    ("character_set", text σ x.character_set), ("characters", text σ x.characters)] ++ r =
      structText σ "AggregateMarking" [
    ("character_set", text σ y.character_set), ("characters", text σ y.characters)] ++ r' := h
    obtain ⟨h1, h⟩ := read_first hσ (x := x.character_set) (y := y.character_set) h
    obtain ⟨h2, h⟩ := read_next hσ (x := x.characters) (y := y.characters) h
    refine ⟨?_, read_end h⟩
    show AggregateMarking.mk (calm x.character_set) (calm x.characters) = AggregateMarking.mk (calm y.character_set)
      (calm y.characters)
    rw [h1, h2]
instance : Legible AngularVelocity where
  starts _ _ := structText_starts (by decide +kernel) _
  line hσ ha x := structText_line ha (by decide +kernel) <|
    field_line (by decide +kernel) (Legible.line hσ ha x.rate_about_x_axis) <|
    field_line (by decide +kernel) (Legible.line hσ ha x.rate_about_y_axis) <|
    field_line (by decide +kernel) (Legible.line hσ ha x.rate_about_z_axis) <|
    no_field_line
  same {σ} hσ x := by
    show structText σ "AngularVelocity" [
    ("rate_about_x_axis", text σ (calm x.rate_about_x_axis)),
  ("rate_about_y_axis", text σ (calm x.rate_about_y_axis)),
  ("rate_about_z_axis", text σ (calm x.rate_about_z_axis))] =
      structText σ "AngularVelocity" [
    ("rate_about_x_axis", text σ x.rate_about_x_axis), ("rate_about_y_axis", text σ x.rate_about_y_axis),
  ("rate_about_z_axis", text σ x.rate_about_z_axis)]
    simp only [Legible.same hσ]
  reads {σ} hσ {x y r r'} _ _ h := by
    have h : structText σ "AngularVelocity" [
    ("rate_about_x_axis", text σ x.rate_about_x_axis), ("rate_about_y_axis", text σ x.rate_about_y_axis),
  ("rate_about_z_axis", text σ x.rate_about_z_axis)] ++ r =
      structText σ "AngularVelocity" [
    ("rate_about_x_axis", text σ y.rate_about_x_axis), ("rate_about_y_axis", text σ y.rate_about_y_axis),
  ("rate_about_z_axis", text σ y.rate_about_z_axis)] ++ r' := h
    obtain ⟨h1, h⟩ := read_first hσ (x := x.rate_about_x_axis) (y := y.rate_about_x_axis) h
    obtain ⟨h2, h⟩ := read_next hσ (x := x.rate_about_y_axis) (y := y.rate_about_y_axis) h
    obtain ⟨h3, h⟩ := read_next hσ (x := x.rate_about_z_axis) (y := y.rate_about_z_axis) h
    refine ⟨?_, read_end h⟩
    show AngularVelocity.mk (calm x.rate_about_x_axis) (calm x.rate_about_y_axis) (calm x.rate_about_z_axis) =
      AngularVelocity.mk (calm y.rate_about_x_axis) (calm y.rate_about_y_axis) (calm y.rate_about_z_axis)
    rw [h1, h2, h3]
instance : Legible AntennaPattern where
  starts _ _ := structText_starts (by decide +kernel) _
  line hσ ha x := structText_line ha (by decide +kernel) <|
    field_line (by decide +kernel) (Legible.line hσ ha x.record_specific_fields) <|
    no_field_line
  same {σ} hσ x := by
    show structText σ "AntennaPattern" [
    ("record_specific_fields", text σ (calm x.record_specific_fields))] =
      structText σ "AntennaPattern" [
    ("record_specific_fields", text σ x.record_specific_fields)]
    simp only [Legible.same hσ]
  reads {σ} hσ {x y r r'} _ _ h := by
    have h : structText σ "AntennaPattern" [
    ("record_specific_fields", text σ x.record_specific_fields)] ++ r =
      structText σ "AntennaPattern" [
    ("record_specific_fields", text σ y.record_specific_fields)] ++ r' := h
    obtain ⟨h1, h⟩ := read_first hσ (x := x.record_specific_fields) (y := y.record_specific_fields) h
    refine ⟨?_, read_end h⟩
    show AntennaPattern.mk (calm x.record_specific_fields) = AntennaPattern.mk (calm y.record_specific_fields)
    rw [h1]
instance : Legible ApaData where
  starts _ _ := structText_starts (by decide +kernel) _
  line hσ ha x := structText_line ha (by decide +kernel) <|
    field_line (by decide +kernel) (Legible.line hσ ha x.parameter_index) <|
    field_line (by decide +kernel) (Legible.line hσ ha x.parameter_value) <|
    no_field_line
  same _ _ := rfl
  reads {σ} hσ {x y r r'} _ _ h := by
    have h : structText σ "ApaData" [
    ("parameter_index", text σ x.parameter_index), ("parameter_value", text σ x.parameter_value)] ++ r =
      structText σ "ApaData" [
    ("parameter_index", text σ y.parameter_index), ("parameter_value", text σ y.parameter_value)] ++ r' := h
    obtain ⟨h1, h⟩ := read_first hσ (x := x.parameter_index) (y := y.parameter_index) h
    obtain ⟨h2, h⟩ := read_next hσ (x := x.parameter_value) (y := y.parameter_value) h
    refine ⟨?_, read_end h⟩
    show ApaData.mk (calm x.parameter_index) (calm x.parameter_value) = ApaData.mk (calm y.parameter_index) (calm
      y.parameter_value)
    rw [h1, h2]
instance : Legible AttributeRecord where
  starts _ _ := structText_starts (by decide +kernel) _
  line hσ ha x := structText_line ha (by decide +kernel) <|
    field_line (by decide +kernel) (Legible.line hσ ha x.record_type) <|
    field_line (by decide +kernel) (Legible.line hσ ha x.record_length) <|
    field_line (by decide +kernel) (Legible.line hσ ha x.record_specific_fields) <|
    no_field_line
  same {σ} hσ x := by
    show structText σ "AttributeRecord" [
    ("record_type", text σ (calm x.record_type)), ("record_length", text σ (calm x.record_length)),
  ("record_specific_fields", text σ (calm x.record_specific_fields))] =
      structText σ "AttributeRecord" [
    ("record_type", text σ x.record_type), ("record_length", text σ x.record_length),
  ("record_specific_fields", text σ x.record_specific_fields)]
    simp only [Legible.same hσ]
  reads {σ} hσ {x y r r'} _ _ h := by
    have h : structText σ "AttributeRecord" [
    ("record_type", text σ x.record_type), ("record_length", text σ x.record_length),
  ("record_specific_fields", text σ x.record_specific_fields)] ++ r =
      structText σ "AttributeRecord" [
    ("record_type", text σ y.record_type), ("record_length", text σ y.record_length),
  ("record_specific_fields", text σ y.record_specific_fields)] ++ r' := h
    obtain ⟨h1, h⟩ := read_first hσ (x := x.record_type) (y := y.record_type) h
    obtain ⟨h2, h⟩ := read_next hσ (x := x.record_length) (y := y.record_length) h
    obtain ⟨h3, h⟩ := read_next hσ (x := x.record_specific_fields) (y := y.record_specific_fields) h
    refine ⟨?_, read_end h⟩
    show AttributeRecord.mk (calm x.record_type) (calm x.record_length) (calm x.record_specific_fields) =
      AttributeRecord.mk (calm y.record_type) (calm y.record_length) (calm y.record_specific_fields)
    rw [h1, h2, h3]
instance : Legible SimulationAddress where
  starts _ _ := structText_starts (by decide +kernel) _
  line hσ ha x := structText_line ha (by decide +kernel) <|
    field_line (by decide +kernel) (Legible.line hσ ha x.site_id) <|
    field_line (by decide +kernel) (Legible.line hσ ha x.application_id) <|
    no_field_line
  same _ _ := rfl
  reads {σ} hσ {x y r r'} _ _ h := by
    have h : structText σ "SimulationAddress" [
    ("site_id", text σ x.site_id), ("application_id", text σ x.application_id)] ++ r =
      structText σ "SimulationAddress" [
    ("site_id", text σ y.site_id), ("application_id", text σ y.application_id)] ++ r' := h
    obtain ⟨h1, h⟩ := read_first hσ (x := x.site_id) (y := y.site_id) h
    obtain ⟨h2, h⟩ := read_next hσ (x := x.application_id) (y := y.application_id) h
    refine ⟨?_, read_end h⟩
    show SimulationAddress.mk (calm x.site_id) (calm x.application_id) = SimulationAddress.mk (calm y.site_id) (calm
      y.application_id)
    rw [h1, h2]
instance : Legible EntityId where
  starts _ _ := structText_starts (by decide +kernel) _
  line hσ ha x := structText_line ha (by decide +kernel) <|
    field_line (by decide +kernel) (Legible.line hσ ha x.simulation_address) <|
    field_line (by decide +kernel) (Legible.line hσ ha x.entity_id) <|
    no_field_line
  same _ _ := rfl
  reads {σ} hσ {x y r r'} _ _ h := by
    have h : structText σ "EntityId" [
    ("simulation_address", text σ x.simulation_address), ("entity_id", text σ x.entity_id)] ++ r =
      structText σ "EntityId" [
    ("simulation_address", text σ y.simulation_address), ("entity_id", text σ y.entity_id)] ++ r' := h
    obtain ⟨h1, h⟩ := read_first hσ (x := x.simulation_address) (y := y.simulation_address) h
    obtain ⟨h2, h⟩ := read_next hσ (x := x.entity_id) (y := y.entity_id) h
    refine ⟨?_, read_end h⟩
    show EntityId.mk (calm x.simulation_address) (calm x.entity_id) = EntityId.mk (calm y.simulation_address) (calm
      y.entity_id)
    rw [h1, h2]
instance : Legible AttributeRecordSet where
  starts _ _ := structText_starts (by decide +kernel) _
  line hσ ha x := structText_line ha (by decide +kernel) <|
    field_line (by decide +kernel) (Legible.line hσ ha x.entity_id) <|
    field_line (by decide +kernel) (Legible.line hσ ha x.number_of_attribute_records) <|
    field_line (by decide +kernel) (Legible.line hσ ha x.attribute_records) <|
    no_field_line
  same {σ} hσ x := by
    show structText σ "AttributeRecordSet" [
    ("entity_id", text σ (calm x.entity_id)),
  ("number_of_attribute_records", text σ (calm x.number_of_attribute_records)),
  ("attribute_records", text σ (calm x.attribute_records))] =
      structText σ "AttributeRecordSet" [
    ("entity_id", text σ x.entity_id), ("number_of_attribute_records", text σ x.number_of_attribute_records),
  ("attribute_records", text σ x.attribute_records)]
    simp only [Legible.same hσ]
  reads {σ} hσ {x y r r'} _ _ h := by
    have h : structText σ "AttributeRecordSet" [
    ("entity_id", text σ x.entity_id), ("number_of_attribute_records", text σ x.number_of_attribute_records),
  ("attribute_records", text σ x.attribute_records)] ++ r =
      structText σ "AttributeRecordSet" [
    ("entity_id", text σ y.entity_id), ("number_of_attribute_records", text σ y.number_of_attribute_records),
  ("attribute_records", text σ y.attribute_records)] ++ r' := h
    obtain ⟨h1, h⟩ := read_first hσ (x := x.entity_id) (y := y.entity_id) h
    obtain ⟨h2, h⟩ := read_next hσ (x := x.number_of_attribute_records) (y := y.number_of_attribute_records) h
    obtain ⟨h3, h⟩ := read_next hσ (x := x.attribute_records) (y := y.attribute_records) h
    refine ⟨?_, read_end h⟩
    show AttributeRecordSet.mk (calm x.entity_id) (calm x.number_of_attribute_records) (calm x.attribute_records) =
      AttributeRecordSet.mk (calm y.entity_id) (calm y.number_of_attribute_records) (calm y.attribute_records)
    rw [h1, h2, h3]
instance : Legible BeamData where
  starts _ _ := structText_starts (by decide +kernel) _
  line hσ ha x := structText_line ha (by decide +kernel) <|
    field_line (by decide +kernel) (Legible.line hσ ha x.beam_azimuth_center) <|
    field_line (by decide +kernel) (Legible.line hσ ha x.beam_azimuth_sweep) <|
    field_line (by decide +kernel) (Legible.line hσ ha x.beam_elevation_center) <|
    field_line (by decide +kernel) (Legible.line hσ ha x.beam_elevation_sweep) <|
    field_line (by decide +kernel) (Legible.line hσ ha x.beam_sweep_sync) <|
    no_field_line
  same {σ} hσ x := by
    show structText σ "BeamData" [
    ("beam_azimuth_center", text σ (calm x.beam_azimuth_center)),
  ("beam_azimuth_sweep", text σ (calm x.beam_azimuth_sweep)),
  ("beam_elevation_center", text σ (calm x.beam_elevation_center)),
  ("beam_elevation_sweep", text σ (calm x.beam_elevation_sweep)),
  ("beam_sweep_sync", text σ (calm x.beam_sweep_sync))] =
      structText σ "BeamData" [
    ("beam_azimuth_center", text σ x.beam_azimuth_center), ("beam_azimuth_sweep", text σ x.beam_azimuth_sweep),
  ("beam_elevation_center", text σ x.beam_elevation_center),
  ("beam_elevation_sweep", text σ x.beam_elevation_sweep), ("beam_sweep_sync", text σ x.beam_sweep_sync)]
    simp only [Legible.same hσ]
  reads {σ} hσ {x y r r'} _ _ h := by
    have h : structText σ "BeamData" [
    ("beam_azimuth_center", text σ x.beam_azimuth_center), ("beam_azimuth_sweep", text σ x.beam_azimuth_sweep),
  ("beam_elevation_center", text σ x.beam_elevation_center),
  ("beam_elevation_sweep", text σ x.beam_elevation_sweep), ("beam_sweep_sync", text σ x.beam_sweep_sync)] ++ r =
      structText σ "BeamData" [
    ("beam_azimuth_center", text σ y.beam_azimuth_center), ("beam_azimuth_sweep", text σ y.beam_azimuth_sweep),
  ("beam_elevation_center", text σ y.beam_elevation_center),
  ("beam_elevation_sweep", text σ y.beam_elevation_sweep), ("beam_sweep_sync", text σ y.beam_sweep_sync)] ++ r' := h
    obtain ⟨h1, h⟩ := read_first hσ (x := x.beam_azimuth_center) (y := y.beam_azimuth_center) h
    obtain ⟨h2, h⟩ := read_next hσ (x := x.beam_azimuth_sweep) (y := y.beam_azimuth_sweep) h
    obtain ⟨h3, h⟩ := read_next hσ (x := x.beam_elevation_center) (y := y.beam_elevation_center) h
    obtain ⟨h4, h⟩ := read_next hσ (x := x.beam_elevation_sweep) (y := y.beam_elevation_sweep) h
    obtain ⟨h5, h⟩ := read_next hσ (x := x.beam_sweep_sync) (y := y.beam_sweep_sync) h
    refine ⟨?_, read_end h⟩
    show BeamData.mk (calm x.beam_azimuth_center) (calm x.beam_azimuth_sweep) (calm x.beam_elevation_center) (calm
      x.beam_elevation_sweep) (calm x.beam_sweep_sync) = BeamData.mk (calm y.beam_azimuth_center) (calm
      y.beam_azimuth_sweep) (calm y.beam_elevation_center) (calm y.beam_elevation_sweep) (calm y.beam_sweep_sync)
    rw [h1, h2, h3, h4, h5]
instance : Legible ClockTime where
  starts _ _ := structText_starts (by decide +kernel) _
  line hσ ha x := structText_line ha (by decide +kernel) <|
    field_line (by decide +kernel) (Legible.line hσ ha x.hour) <|
    field_line (by decide +kernel) (Legible.line hσ ha x.time_past_hour) <|
    no_field_line
  same _ _ := rfl
  reads {σ} hσ {x y r r'} _ _ h := by
    have h : structText σ "ClockTime" [
    ("hour", text σ x.hour), ("time_past_hour", text σ x.time_past_hour)] ++ r =
      structText σ "ClockTime" [
    ("hour", text σ y.hour), ("time_past_hour", text σ y.time_past_hour)] ++ r' := h
    obtain ⟨h1, h⟩ := read_first hσ (x := x.hour) (y := y.hour) h
    obtain ⟨h2, h⟩ := read_next hσ (x := x.time_past_hour) (y := y.time_past_hour) h
    refine ⟨?_, read_end h⟩
    show ClockTime.mk (calm x.hour) (calm x.time_past_hour) = ClockTime.mk (calm y.hour) (calm y.time_past_hour)
    rw [h1, h2]
instance : Legible FixedDatumRecord where
  starts _ _ := structText_starts (by decide +kernel) _
  line hσ ha x := structText_line ha (by decide +kernel) <|
    field_line (by decide +kernel) (Legible.line hσ ha x.datum_id) <|
    field_line (by decide +kernel) (Legible.line hσ ha x.datum_value) <|
    no_field_line
  same _ _ := rfl
  reads {σ} hσ {x y r r'} _ _ h := by
    have h : structText σ "FixedDatumRecord" [
    ("datum_id", text σ x.datum_id), ("datum_value", text σ x.datum_value)] ++ r =
      structText σ "FixedDatumRecord" [
    ("datum_id", text σ y.datum_id), ("datum_value", text σ y.datum_value)] ++ r' := h
    obtain ⟨h1, h⟩ := read_first hσ (x := x.datum_id) (y := y.datum_id) h
    obtain ⟨h2, h⟩ := read_next hσ (x := x.datum_value) (y := y.datum_value) h
    refine ⟨?_, read_end h⟩
    show FixedDatumRecord.mk (calm x.datum_id) (calm x.datum_value) = FixedDatumRecord.mk (calm y.datum_id) (calm
      y.datum_value)
    rw [h1, h2]
instance : Legible VariableDatumRecord where
  starts _ _ := structText_starts (by decide +kernel) _
  line hσ ha x := structText_line ha (by decide +kernel) <|
    field_line (by decide +kernel) (Legible.line hσ ha x.datum_id) <|
    field_line (by decide +kernel) (Legible.line hσ ha x.length_bits) <|
    field_line (by decide +kernel) (Legible.line hσ ha x.value) <|
    no_field_line
  same {σ} hσ x := by
    show structText σ "VariableDatumRecord" [
    ("datum_id", text σ (calm x.datum_id)), ("length_bits", text σ (calm x.length_bits)),
  ("value", text σ (calm x.value))] =
      structText σ "VariableDatumRecord" [
    ("datum_id", text σ x.datum_id), ("length_bits", text σ x.length_bits), ("value", text σ x.value)]
    simp only [Legible.same hσ]
  reads {σ} hσ {x y r r'} _ _ h := by
    have h : structText σ "VariableDatumRecord" [
    ("datum_id", text σ x.datum_id), ("length_bits", text σ x.length_bits), ("value", text σ x.value)] ++ r =
      structText σ "VariableDatumRecord" [
    ("datum_id", text σ y.datum_id), ("length_bits", text σ y.length_bits), ("value", text σ y.value)] ++ r' := h
    obtain ⟨h1, h⟩ := read_first hσ (x := x.datum_id) (y := y.datum_id) h
    obtain ⟨h2, h⟩ := read_next hσ (x := x.length_bits) (y := y.length_bits) h
    obtain ⟨h3, h⟩ := read_next hσ (x := x.value) (y := y.value) h
    refine ⟨?_, read_end h⟩
    show VariableDatumRecord.mk (calm x.datum_id) (calm x.length_bits) (calm x.value) = VariableDatumRecord.mk (calm
      y.datum_id) (calm y.length_bits) (calm y.value)
    rw [h1, h2, h3]
instance : Legible LinearAcceleration where
  starts _ _ := structText_starts (by decide +kernel) _
  line hσ ha x := structText_line ha (by decide +kernel) <|
    field_line (by decide +kernel) (Legible.line hσ ha x.first_vector_component) <|
    field_line (by decide +kernel) (Legible.line hσ ha x.second_vector_component) <|
    field_line (by decide +kernel) (Legible.line hσ ha x.third_vector_component) <|
    no_field_line
  same {σ} hσ x := by
    show structText σ "LinearAcceleration" [
    ("first_vector_component", text σ (calm x.first_vector_component)),
  ("second_vector_component", text σ (calm x.second_vector_component)),
  ("third_vector_component", text σ (calm x.third_vector_component))] =
      structText σ "LinearAcceleration" [
    ("first_vector_component", text σ x.first_vector_component),
  ("second_vector_component", text σ x.second_vector_component),
  ("third_vector_component", text σ x.third_vector_component)]
    simp only [Legible.same hσ]
  reads {σ} hσ {x y r r'} _ _ h := by
    have h : structText σ "LinearAcceleration" [
    ("first_vector_component", text σ x.first_vector_component),
  ("second_vector_component", text σ x.second_vector_component),
  ("third_vector_component", text σ x.third_vector_component)] ++ r =
      structText σ "LinearAcceleration" [
    ("first_vector_component", text σ y.first_vector_component),
  ("second_vector_component", text σ y.second_vector_component),
  ("third_vector_component", text σ y.third_vector_component)] ++ r' := h
    obtain ⟨h1, h⟩ := read_first hσ (x := x.first_vector_component) (y := y.first_vector_component) h
    obtain ⟨h2, h⟩ := read_next hσ (x := x.second_vector_component) (y := y.second_vector_component) h
    obtain ⟨h3, h⟩ := read_next hσ (x := x.third_vector_component) (y := y.third_vector_component) h
    refine ⟨?_, read_end h⟩
    show LinearAcceleration.mk (calm x.first_vector_component) (calm x.second_vector_component) (calm
      x.third_vector_component) = LinearAcceleration.mk (calm y.first_vector_component) (calm
      y.second_vector_component) (calm y.third_vector_component)
    rw [h1, h2, h3]
instance : Legible DeadReckoningParameters where
  starts _ _ := structText_starts (by decide +kernel) _
  line hσ ha x := structText_line ha (by decide +kernel) <|
    field_line (by decide +kernel) (Legible.line hσ ha x.dead_reckoning_algorithm) <|
    field_line (by decide +kernel) (Legible.line hσ ha x.dead_reckoning_other_parameters) <|
    field_line (by decide +kernel) (Legible.line hσ ha x.entity_linear_acceleration) <|
    field_line (by decide +kernel) (Legible.line hσ ha x.entity_angular_velocity) <|
    no_field_line
  same {σ} hσ x := by
    show structText σ "DeadReckoningParameters" [
    ("dead_reckoning_algorithm", text σ (calm x.dead_reckoning_algorithm)),
  ("dead_reckoning_other_parameters", text σ (calm x.dead_reckoning_other_parameters)),
  ("entity_linear_acceleration", text σ (calm x.entity_linear_acceleration)),
  ("entity_angular_velocity", text σ (calm x.entity_angular_velocity))] =
      structText σ "DeadReckoningParameters" [
    ("dead_reckoning_algorithm", text σ x.dead_reckoning_algorithm),
  ("dead_reckoning_other_parameters", text σ x.dead_reckoning_other_parameters),
  ("entity_linear_acceleration", text σ x.entity_linear_acceleration),
  ("entity_angular_velocity", text σ x.entity_angular_velocity)]
    simp only [Legible.same hσ]
  reads {σ} hσ {x y r r'} _ _ h := by
    have h : structText σ "DeadReckoningParameters" [
    ("dead_reckoning_algorithm", text σ x.dead_reckoning_algorithm),
  ("dead_reckoning_other_parameters", text σ x.dead_reckoning_other_parameters),
  ("entity_linear_acceleration", text σ x.entity_linear_acceleration),
  ("entity_angular_velocity", text σ x.entity_angular_velocity)] ++ r =
      structText σ "DeadReckoningParameters" [
    ("dead_reckoning_algorithm", text σ y.dead_reckoning_algorithm),
  ("dead_reckoning_other_parameters", text σ y.dead_reckoning_other_parameters),
  ("entity_linear_acceleration", text σ y.entity_linear_acceleration),
  ("entity_angular_velocity", text σ y.entity_angular_velocity)] ++ r' := h
    obtain ⟨h1, h⟩ := read_first hσ (x := x.dead_reckoning_algorithm) (y := y.dead_reckoning_algorithm) h
    obtain ⟨h2, h⟩ := read_next hσ (x := x.dead_reckoning_other_parameters) (y := y.dead_reckoning_other_parameters) h
    obtain ⟨h3, h⟩ := read_next hσ (x := x.entity_linear_acceleration) (y := y.entity_linear_acceleration) h
    obtain ⟨h4, h⟩ := read_next hσ (x := x.entity_angular_velocity) (y := y.entity_angular_velocity) h
    refine ⟨?_, read_end h⟩
    show DeadReckoningParameters.mk (calm x.dead_reckoning_algorithm) (calm x.dead_reckoning_other_parameters) (calm
      x.entity_linear_acceleration) (calm x.entity_angular_velocity) = DeadReckoningParameters.mk (calm
      y.dead_reckoning_algorithm) (calm y.dead_reckoning_other_parameters) (calm y.entity_linear_acceleration) (calm
      y.entity_angular_velocity)
    rw [h1, h2, h3, h4]
instance : Legible EntityCoordinateVector where
  starts _ _ := structText_starts (by decide +kernel) _
  line hσ ha x := structText_line ha (by decide +kernel) <|
    field_line (by decide +kernel) (Legible.line hσ ha x.x_coordinate) <|
    field_line (by decide +kernel) (Legible.line hσ ha x.y_coordinate) <|
    field_line (by decide +kernel) (Legible.line hσ ha x.z_coordinate) <|
    no_field_line
  same {σ} hσ x := by
    show structText σ "EntityCoordinateVector" [
    ("x_coordinate", text σ (calm x.x_coordinate)), ("y_coordinate", text σ (calm x.y_coordinate)),
  ("z_coordinate", text σ (calm x.z_coordinate))] =
      structText σ "EntityCoordinateVector" [
    ("x_coordinate", text σ x.x_coordinate), ("y_coordinate", text σ x.y_coordinate),
  ("z_coordinate", text σ x.z_coordinate)]
    simp only [Legible.same hσ]
  reads {σ} hσ {x y r r'} _ _ h := by
    have h : structText σ "EntityCoordinateVector" [
    ("x_coordinate", text σ x.x_coordinate), ("y_coordinate", text σ x.y_coordinate),
  ("z_coordinate", text σ x.z_coordinate)] ++ r =
      structText σ "EntityCoordinateVector" [
    ("x_coordinate", text σ y.x_coordinate), ("y_coordinate", text σ y.y_coordinate),
  ("z_coordinate", text σ y.z_coordinate)] ++ r' := h
    obtain ⟨h1, h⟩ := read_first hσ (x := x.x_coordinate) (y := y.x_coordinate) h
    obtain ⟨h2, h⟩ := read_next hσ (x := x.y_coordinate) (y := y.y_coordinate) h
    obtain ⟨h3, h⟩ := read_next hσ (x := x.z_coordinate) (y := y.z_coordinate) h
    refine ⟨?_, read_end h⟩
    show EntityCoordinateVector.mk (calm x.x_coordinate) (calm x.y_coordinate) (calm x.z_coordinate) =
      EntityCoordinateVector.mk (calm y.x_coordinate) (calm y.y_coordinate) (calm y.z_coordinate)
    rw [h1, h2, h3]
instance : Legible EventId where
  starts _ _ := structText_starts (by decide +kernel) _
  line hσ ha x := structText_line ha (by decide +kernel) <|
    field_line (by decide +kernel) (Legible.line hσ ha x.simulation_address) <|
    field_line (by decide +kernel) (Legible.line hσ ha x.event_identifier) <|
    no_field_line
  same _ _ := rfl
  reads {σ} hσ {x y r r'} _ _ h := by
    have h : structText σ "EventId" [
    ("simulation_address", text σ x.simulation_address), ("event_identifier", text σ x.event_identifier)] ++ r =
      structText σ "EventId" [
    ("simulation_address", text σ y.simulation_address), ("event_identifier", text σ y.event_identifier)] ++ r' := h
    obtain ⟨h1, h⟩ := read_first hσ (x := x.simulation_address) (y := y.simulation_address) h
    obtain ⟨h2, h⟩ := read_next hσ (x := x.event_identifier) (y := y.event_identifier) h
    refine ⟨?_, read_end h⟩
    show EventId.mk (calm x.simulation_address) (calm x.event_identifier) = EventId.mk (calm y.simulation_address)
      (calm y.event_identifier)
    rw [h1, h2]
instance : Legible DirectedEnergyDamage where
  starts _ _ := structText_starts (by decide +kernel) _
  line hσ ha x := structText_line ha (by decide +kernel) <|
    field_line (by decide +kernel) (Legible.line hσ ha x.record_type) <|
    field_line (by decide +kernel) (Legible.line hσ ha x.record_length) <|
    field_line (by decide +kernel) (Legible.line hσ ha x.padding) <|
    field_line (by decide +kernel) (Legible.line hσ ha x.damage_location) <|
    field_line (by decide +kernel) (Legible.line hσ ha x.damage_diameter) <|
    field_line (by decide +kernel) (Legible.line hσ ha x.temperature) <|
    field_line (by decide +kernel) (Legible.line hσ ha x.component_identification) <|
    field_line (by decide +kernel) (Legible.line hσ ha x.component_damage_status) <|
    field_line (by decide +kernel) (Legible.line hσ ha x.component_visual_damage_status) <|
    field_line (by decide +kernel) (Legible.line hσ ha x.component_visual_smoke_color) <|
    field_line (by decide +kernel) (Legible.line hσ ha x.fire_event_id) <|
    field_line (by decide +kernel) (Legible.line hσ ha x.padding2) <|
    no_field_line
  same {σ} hσ x := by
    show structText σ "DirectedEnergyDamage" [
    ("record_type", text σ (calm x.record_type)), ("record_length", text σ (calm x.record_length)),
  ("padding", text σ (calm x.padding)), ("damage_location", text σ (calm x.damage_location)),
  ("damage_diameter", text σ (calm x.damage_diameter)), ("temperature", text σ (calm x.temperature)),
  ("component_identification", text σ (calm x.component_identification)),
  ("component_damage_status", text σ (calm x.component_damage_status)),
  ("component_visual_damage_status", text σ (calm x.component_visual_damage_status)),
  ("component_visual_smoke_color", text σ (calm x.component_visual_smoke_color)),
  ("fire_event_id", text σ (calm x.fire_event_id)), ("padding2", text σ (calm x.padding2))] =
      structText σ "DirectedEnergyDamage" [
    ("record_type", text σ x.record_type), ("record_length", text σ x.record_length), ("padding", text σ x.padding),
  ("damage_location", text σ x.damage_location), ("damage_diameter", text σ x.damage_diameter),
  ("temperature", text σ x.temperature), ("component_identification", text σ x.component_identification),
  ("component_damage_status", text σ x.component_damage_status),
  ("component_visual_damage_status", text σ x.component_visual_damage_status),
  ("component_visual_smoke_color", text σ x.component_visual_smoke_color),
  ("fire_event_id", text σ x.fire_event_id), ("padding2", text σ x.padding2)]
    simp only [Legible.same hσ]
  reads {σ} hσ {x y r r'} _ _ h := by
    have h : structText σ "DirectedEnergyDamage" [
    ("record_type", text σ x.record_type), ("record_length", text σ x.record_length), ("padding", text σ x.padding),
  ("damage_location", text σ x.damage_location), ("damage_diameter", text σ x.damage_diameter),
  ("temperature", text σ x.temperature), ("component_identification", text σ x.component_identification),
  ("component_damage_status", text σ x.component_damage_status),
  ("component_visual_damage_status", text σ x.component_visual_damage_status),
  ("component_visual_smoke_color", text σ x.component_visual_smoke_color),
  ("fire_event_id", text σ x.fire_event_id), ("padding2", text σ x.padding2)] ++ r =
      structText σ "DirectedEnergyDamage" [
    ("record_type", text σ y.record_type), ("record_length", text σ y.record_length), ("padding", text σ y.padding),
  ("damage_location", text σ y.damage_location), ("damage_diameter", text σ y.damage_diameter),
  ("temperature", text σ y.temperature), ("component_identification", text σ y.component_identification),
  ("component_damage_status", text σ y.component_damage_status),
  ("component_visual_damage_status", text σ y.component_visual_damage_status),
  ("component_visual_smoke_color", text σ y.component_visual_smoke_color),
  ("fire_event_id", text σ y.fire_event_id), ("padding2", text σ y.padding2)] ++ r' := h
    obtain ⟨h1, h⟩ := read_first hσ (x := x.record_type) (y := y.record_type) h
    obtain ⟨h2, h⟩ := read_next hσ (x := x.record_length) (y := y.record_length) h
    obtain ⟨h3, h⟩ := read_next hσ (x := x.padding) (y := y.padding) h
    obtain ⟨h4, h⟩ := read_next hσ (x := x.damage_location) (y := y.damage_location) h
    obtain ⟨h5, h⟩ := read_next hσ (x := x.damage_diameter) (y := y.damage_diameter) h
    obtain ⟨h6, h⟩ := read_next hσ (x := x.temperature) (y := y.temperature) h
    obtain ⟨h7, h⟩ := read_next hσ (x := x.component_identification) (y := y.component_identification) h
    obtain ⟨h8, h⟩ := read_next hσ (x := x.component_damage_status) (y := y.component_damage_status) h
    obtain ⟨h9, h⟩ := read_next hσ (x := x.component_visual_damage_status) (y := y.component_visual_damage_status) h
    obtain ⟨h10, h⟩ := read_next hσ (x := x.component_visual_smoke_color) (y := y.component_visual_smoke_color) h
    obtain ⟨h11, h⟩ := read_next hσ (x := x.fire_event_id) (y := y.fire_event_id) h
    obtain ⟨h12, h⟩ := read_next hσ (x := x.padding2) (y := y.padding2) h
    refine ⟨?_, read_end h⟩
    show DirectedEnergyDamage.mk (calm x.record_type) (calm x.record_length) (calm x.padding) (calm x.damage_location)
      (calm x.damage_diameter) (calm x.temperature) (calm x.component_identification) (calm x.component_damage_status)
      (calm x.component_visual_damage_status) (calm x.component_visual_smoke_color) (calm x.fire_event_id) (calm
      x.padding2) = DirectedEnergyDamage.mk (calm y.record_type) (calm y.record_length) (calm y.padding) (calm
      y.damage_location) (calm y.damage_diameter) (calm y.temperature) (calm y.component_identification) (calm
      y.component_damage_status) (calm y.component_visual_damage_status) (calm y.component_visual_smoke_color) (calm
      y.fire_event_id) (calm y.padding2)
    rw [h1, h2, h3, h4, h5, h6, h7, h8, h9, h10, h11, h12]
instance : Legible FundamentalParameterData where
  starts _ _ := structText_starts (by decide +kernel) _
  line hσ ha x := structText_line ha (by decide +kernel) <|
    field_line (by decide +kernel) (Legible.line hσ ha x.frequency) <|
    field_line (by decide +kernel) (Legible.line hσ ha x.frequency_range) <|
    field_line (by decide +kernel) (Legible.line hσ ha x.effective_radiated_power) <|
    field_line (by decide +kernel) (Legible.line hσ ha x.pulse_repetition_frequency) <|
    field_line (by decide +kernel) (Legible.line hσ ha x.pulse_width) <|
    field_line (by decide +kernel) (Legible.line hσ ha x.beam_azimuth_center) <|
    field_line (by decide +kernel) (Legible.line hσ ha x.beam_azimuth_sweep) <|
    field_line (by decide +kernel) (Legible.line hσ ha x.beam_elevation_center) <|
    field_line (by decide +kernel) (Legible.line hσ ha x.beam_elevation_sweep) <|
    field_line (by decide +kernel) (Legible.line hσ ha x.beam_sweep_sync) <|
    no_field_line
  same {σ} hσ x := by
    show structText σ "FundamentalParameterData" [
    ("frequency", text σ (calm x.frequency)), ("frequency_range", text σ (calm x.frequency_range)),
  ("effective_radiated_power", text σ (calm x.effective_radiated_power)),
  ("pulse_repetition_frequency", text σ (calm x.pulse_repetition_frequency)),
  ("pulse_width", text σ (calm x.pulse_width)), ("beam_azimuth_center", text σ (calm x.beam_azimuth_center)),
  ("beam_azimuth_sweep", text σ (calm x.beam_azimuth_sweep)),
  ("beam_elevation_center", text σ (calm x.beam_elevation_center)),
  ("beam_elevation_sweep", text σ (calm x.beam_elevation_sweep)),
  ("beam_sweep_sync", text σ (calm x.beam_sweep_sync))] =
      structText σ "FundamentalParameterData" [
    ("frequency", text σ x.frequency), ("frequency_range", text σ x.frequency_range),
  ("effective_radiated_power", text σ x.effective_radiated_power),
  ("pulse_repetition_frequency", text σ x.pulse_repetition_frequency), ("pulse_width", text σ x.pulse_width),
  ("beam_azimuth_center", text σ x.beam_azimuth_center), ("beam_azimuth_sweep", text σ x.beam_azimuth_sweep),
  ("beam_elevation_center", text σ x.beam_elevation_center),
  ("beam_elevation_sweep", text σ x.beam_elevation_sweep), ("beam_sweep_sync", text σ x.beam_sweep_sync)]
    simp only [Legible.same hσ]
  reads {σ} hσ {x y r r'} _ _ h := by
    have h : structText σ "FundamentalParameterData" [
    ("frequency", text σ x.frequency), ("frequency_range", text σ x.frequency_range),
  ("effective_radiated_power", text σ x.effective_radiated_power),
  ("pulse_repetition_frequency", text σ x.pulse_repetition_frequency), ("pulse_width", text σ x.pulse_width),
  ("beam_azimuth_center", text σ x.beam_azimuth_center), ("beam_azimuth_sweep", text σ x.beam_azimuth_sweep),
  ("beam_elevation_center", text σ x.beam_elevation_center),
  ("beam_elevation_sweep", text σ x.beam_elevation_sweep), ("beam_sweep_sync", text σ x.beam_sweep_sync)] ++ r =
      structText σ "FundamentalParameterData" [
    ("frequency", text σ y.frequency), ("frequency_range", text σ y.frequency_range),
  ("effective_radiated_power", text σ y.effective_radiated_power),
  ("pulse_repetition_frequency", text σ y.pulse_repetition_frequency), ("pulse_width", text σ y.pulse_width),
  ("beam_azimuth_center", text σ y.beam_azimuth_center), ("beam_azimuth_sweep", text σ y.beam_azimuth_sweep),
  ("beam_elevation_center", text σ y.beam_elevation_center),
  ("beam_elevation_sweep", text σ y.beam_elevation_sweep), ("beam_sweep_sync", text σ y.beam_sweep_sync)] ++ r' := h
    obtain ⟨h1, h⟩ := read_first hσ (x := x.frequency) (y := y.frequency) h
    obtain ⟨h2, h⟩ := read_next hσ (x := x.frequency_range) (y := y.frequency_range) h
    obtain ⟨h3, h⟩ := read_next hσ (x := x.effective_radiated_power) (y := y.effective_radiated_power) h
    obtain ⟨h4, h⟩ := read_next hσ (x := x.pulse_repetition_frequency) (y := y.pulse_repetition_frequency) h
    obtain ⟨h5, h⟩ := read_next hσ (x := x.pulse_width) (y := y.pulse_width) h
    obtain ⟨h6, h⟩ := read_next hσ (x := x.beam_azimuth_center) (y := y.beam_azimuth_center) h
    obtain ⟨h7, h⟩ := read_next hσ (x := x.beam_azimuth_sweep) (y := y.beam_azimuth_sweep) h
    obtain ⟨h8, h⟩ := read_next hσ (x := x.beam_elevation_center) (y := y.beam_elevation_center) h
    obtain ⟨h9, h⟩ := read_next hσ (x := x.beam_elevation_sweep) (y := y.beam_elevation_sweep) h
    obtain ⟨h10, h⟩ := read_next hσ (x := x.beam_sweep_sync) (y := y.beam_sweep_sync) h
    refine ⟨?_, read_end h⟩
    show FundamentalParameterData.mk (calm x.frequency) (calm x.frequency_range) (calm x.effective_radiated_power)
      (calm x.pulse_repetition_frequency) (calm x.pulse_width) (calm x.beam_azimuth_center) (calm
      x.beam_azimuth_sweep) (calm x.beam_elevation_center) (calm x.beam_elevation_sweep) (calm x.beam_sweep_sync) =
      FundamentalParameterData.mk (calm y.frequency) (calm y.frequency_range) (calm y.effective_radiated_power) (calm
      y.pulse_repetition_frequency) (calm y.pulse_width) (calm y.beam_azimuth_center) (calm y.beam_azimuth_sweep)
      (calm y.beam_elevation_center) (calm y.beam_elevation_sweep) (calm y.beam_sweep_sync)
    rw [h1, h2, h3, h4, h5, h6, h7, h8, h9, h10]
instance : Legible TrackJamTarget where
  starts _ _ := structText_starts (by decide +kernel) _
  line hσ ha x := structText_line ha (by decide +kernel) <|
    field_line (by decide +kernel) (Legible.line hσ ha x.track_jam) <|
    field_line (by decide +kernel) (Legible.line hσ ha x.emitter_id) <|
    field_line (by decide +kernel) (Legible.line hσ ha x.beam_id) <|
    no_field_line
  same _ _ := rfl
  reads {σ} hσ {x y r r'} _ _ h := by
    have h : structText σ "TrackJamTarget" [
    ("track_jam", text σ x.track_jam), ("emitter_id", text σ x.emitter_id), ("beam_id", text σ x.beam_id)] ++ r =
      structText σ "TrackJamTarget" [
    ("track_jam", text σ y.track_jam), ("emitter_id", text σ y.emitter_id), ("beam_id", text σ y.beam_id)] ++ r' := h
    obtain ⟨h1, h⟩ := read_first hσ (x := x.track_jam) (y := y.track_jam) h
    obtain ⟨h2, h⟩ := read_next hσ (x := x.emitter_id) (y := y.emitter_id) h
    obtain ⟨h3, h⟩ := read_next hσ (x := x.beam_id) (y := y.beam_id) h
    refine ⟨?_, read_end h⟩
    show TrackJamTarget.mk (calm x.track_jam) (calm x.emitter_id) (calm x.beam_id) = TrackJamTarget.mk (calm
      y.track_jam) (calm y.emitter_id) (calm y.beam_id)
    rw [h1, h2, h3]
instance : Legible ElectromagneticEmissionBeamData where
  starts _ _ := structText_starts (by decide +kernel) _
  line hσ ha x := structText_line ha (by decide +kernel) <|
    field_line (by decide +kernel) (Legible.line hσ ha x.beam_data_length) <|
    field_line (by decide +kernel) (Legible.line hσ ha x.beam_id_number) <|
    field_line (by decide +kernel) (Legible.line hσ ha x.beam_parameter_index) <|
    field_line (by decide +kernel) (Legible.line hσ ha x.fundamental_parameter_data) <|
    field_line (by decide +kernel) (Legible.line hσ ha x.beam_function) <|
    field_line (by decide +kernel) (Legible.line hσ ha x.number_of_track_jam_targets) <|
    field_line (by decide +kernel) (Legible.line hσ ha x.high_density_track_jam) <|
    field_line (by decide +kernel) (Legible.line hσ ha x.pad4) <|
    field_line (by decide +kernel) (Legible.line hσ ha x.jamming_mode_sequence) <|
    field_line (by decide +kernel) (Legible.line hσ ha x.track_jam_targets) <|
    no_field_line
  same {σ} hσ x := by
    show structText σ "ElectromagneticEmissionBeamData" [
    ("beam_data_length", text σ (calm x.beam_data_length)), ("beam_id_number", text σ (calm x.beam_id_number)),
  ("beam_parameter_index", text σ (calm x.beam_parameter_index)),
  ("fundamental_parameter_data", text σ (calm x.fundamental_parameter_data)),
  ("beam_function", text σ (calm x.beam_function)),
  ("number_of_track_jam_targets", text σ (calm x.number_of_track_jam_targets)),
  ("high_density_track_jam", text σ (calm x.high_density_track_jam)), ("pad4", text σ (calm x.pad4)),
  ("jamming_mode_sequence", text σ (calm x.jamming_mode_sequence)),
  ("track_jam_targets", text σ (calm x.track_jam_targets))] =
      structText σ "ElectromagneticEmissionBeamData" [
    ("beam_data_length", text σ x.beam_data_length), ("beam_id_number", text σ x.beam_id_number),
  ("beam_parameter_index", text σ x.beam_parameter_index),
  ("fundamental_parameter_data", text σ x.fundamental_parameter_data), ("beam_function", text σ x.beam_function),
  ("number_of_track_jam_targets", text σ x.number_of_track_jam_targets),
  ("high_density_track_jam", text σ x.high_density_track_jam), ("pad4", text σ x.pad4),
  ("jamming_mode_sequence", text σ x.jamming_mode_sequence), ("track_jam_targets", text σ x.track_jam_targets)]
    simp only [Legible.same hσ]
  reads {σ} hσ {x y r r'} _ _ h := by
    have h : structText σ "ElectromagneticEmissionBeamData" [
    ("beam_data_length", text σ x.beam_data_length), ("beam_id_number", text σ x.beam_id_number),
  ("beam_parameter_index", text σ x.beam_parameter_index),
  ("fundamental_parameter_data", text σ x.fundamental_parameter_data), ("beam_function", text σ x.beam_function),
  ("number_of_track_jam_targets", text σ x.number_of_track_jam_targets),
  ("high_density_track_jam", text σ x.high_density_track_jam), ("pad4", text σ x.pad4),
  ("jamming_mode_sequence", text σ x.jamming_mode_sequence), ("track_jam_targets", text σ x.track_jam_targets)] ++ r =
      structText σ "ElectromagneticEmissionBeamData" [
    ("beam_data_length", text σ y.beam_data_length), ("beam_id_number", text σ y.beam_id_number),
  ("beam_parameter_index", text σ y.beam_parameter_index),
  ("fundamental_parameter_data", text σ y.fundamental_parameter_data), ("beam_function", text σ y.beam_function),
  ("number_of_track_jam_targets", text σ y.number_of_track_jam_targets),
  ("high_density_track_jam", text σ y.high_density_track_jam), ("pad4", text σ y.pad4),
  ("jamming_mode_sequence", text σ y.jamming_mode_sequence), ("track_jam_targets", text σ y.track_jam_targets)] ++ r' := h
    obtain ⟨h1, h⟩ := read_first hσ (x := x.beam_data_length) (y := y.beam_data_length) h
    obtain ⟨h2, h⟩ := read_next hσ (x := x.beam_id_number) (y := y.beam_id_number) h
    obtain ⟨h3, h⟩ := read_next hσ (x := x.beam_parameter_index) (y := y.beam_parameter_index) h
    obtain ⟨h4, h⟩ := read_next hσ (x := x.fundamental_parameter_data) (y := y.fundamental_parameter_data) h
    obtain ⟨h5, h⟩ := read_next hσ (x := x.beam_function) (y := y.beam_function) h
    obtain ⟨h6, h⟩ := read_next hσ (x := x.number_of_track_jam_targets) (y := y.number_of_track_jam_targets) h
    obtain ⟨h7, h⟩ := read_next hσ (x := x.high_density_track_jam) (y := y.high_density_track_jam) h
    obtain ⟨h8, h⟩ := read_next hσ (x := x.pad4) (y := y.pad4) h
    obtain ⟨h9, h⟩ := read_next hσ (x := x.jamming_mode_sequence) (y := y.jamming_mode_sequence) h
    obtain ⟨h10, h⟩ := read_next hσ (x := x.track_jam_targets) (y := y.track_jam_targets) h
    refine ⟨?_, read_end h⟩
    show ElectromagneticEmissionBeamData.mk (calm x.beam_data_length) (calm x.beam_id_number) (calm
      x.beam_parameter_index) (calm x.fundamental_parameter_data) (calm x.beam_function) (calm
      x.number_of_track_jam_targets) (calm x.high_density_track_jam) (calm x.pad4) (calm x.jamming_mode_sequence)
      (calm x.track_jam_targets) = ElectromagneticEmissionBeamData.mk (calm y.beam_data_length) (calm
      y.beam_id_number) (calm y.beam_parameter_index) (calm y.fundamental_parameter_data) (calm y.beam_function) (calm
      y.number_of_track_jam_targets) (calm y.high_density_track_jam) (calm y.pad4) (calm y.jamming_mode_sequence)
      (calm y.track_jam_targets)
    rw [h1, h2, h3, h4, h5, h6, h7, h8, h9, h10]
instance : Legible EmitterSystem where
  starts _ _ := structText_starts (by decide +kernel) _
  line hσ ha x := structText_line ha (by decide +kernel) <|
    field_line (by decide +kernel) (Legible.line hσ ha x.emitter_name) <|
    field_line (by decide +kernel) (Legible.line hσ ha x.function) <|
    field_line (by decide +kernel) (Legible.line hσ ha x.emitter_id_number) <|
    no_field_line
  same _ _ := rfl
  reads {σ} hσ {x y r r'} _ _ h := by
    have h : structText σ "EmitterSystem" [
    ("emitter_name", text σ x.emitter_name), ("function", text σ x.function),
  ("emitter_id_number", text σ x.emitter_id_number)] ++ r =
      structText σ "EmitterSystem" [
    ("emitter_name", text σ y.emitter_name), ("function", text σ y.function),
  ("emitter_id_number", text σ y.emitter_id_number)] ++ r' := h
    obtain ⟨h1, h⟩ := read_first hσ (x := x.emitter_name) (y := y.emitter_name) h
    obtain ⟨h2, h⟩ := read_next hσ (x := x.function) (y := y.function) h
    obtain ⟨h3, h⟩ := read_next hσ (x := x.emitter_id_number) (y := y.emitter_id_number) h
    refine ⟨?_, read_end h⟩
    show EmitterSystem.mk (calm x.emitter_name) (calm x.function) (calm x.emitter_id_number) = EmitterSystem.mk (calm
      y.emitter_name) (calm y.function) (calm y.emitter_id_number)
    rw [h1, h2, h3]
instance : Legible ElectromagneticEmissionSystemData where
  starts _ _ := structText_starts (by decide +kernel) _
  line hσ ha x := structText_line ha (by decide +kernel) <|
    field_line (by decide +kernel) (Legible.line hσ ha x.system_data_length) <|
    field_line (by decide +kernel) (Legible.line hσ ha x.number_of_beams) <|
    field_line (by decide +kernel) (Legible.line hσ ha x.emissionspadding2) <|
    field_line (by decide +kernel) (Legible.line hσ ha x.emitter_system) <|
    field_line (by decide +kernel) (Legible.line hσ ha x.location) <|
    field_line (by decide +kernel) (Legible.line hσ ha x.beam_data_records) <|
    no_field_line
  same {σ} hσ x := by
    show structText σ "ElectromagneticEmissionSystemData" [
    ("system_data_length", text σ (calm x.system_data_length)), ("number_of_beams", text σ (calm x.number_of_beams)),
  ("emissionspadding2", text σ (calm x.emissionspadding2)), ("emitter_system", text σ (calm x.emitter_system)),
  ("location", text σ (calm x.location)), ("beam_data_records", text σ (calm x.beam_data_records))] =
      structText σ "ElectromagneticEmissionSystemData" [
    ("system_data_length", text σ x.system_data_length), ("number_of_beams", text σ x.number_of_beams),
  ("emissionspadding2", text σ x.emissionspadding2), ("emitter_system", text σ x.emitter_system),
  ("location", text σ x.location), ("beam_data_records", text σ x.beam_data_records)]
    simp only [Legible.same hσ]
  reads {σ} hσ {x y r r'} _ _ h := by
    have h : structText σ "ElectromagneticEmissionSystemData" [
    ("system_data_length", text σ x.system_data_length), ("number_of_beams", text σ x.number_of_beams),
  ("emissionspadding2", text σ x.emissionspadding2), ("emitter_system", text σ x.emitter_system),
  ("location", text σ x.location), ("beam_data_records", text σ x.beam_data_records)] ++ r =
      structText σ "ElectromagneticEmissionSystemData" [
    ("system_data_length", text σ y.system_data_length), ("number_of_beams", text σ y.number_of_beams),
  ("emissionspadding2", text σ y.emissionspadding2), ("emitter_system", text σ y.emitter_system),
  ("location", text σ y.location), ("beam_data_records", text σ y.beam_data_records)] ++ r' := h
    obtain ⟨h1, h⟩ := read_first hσ (x := x.system_data_length) (y := y.system_data_length) h
    obtain ⟨h2, h⟩ := read_next hσ (x := x.number_of_beams) (y := y.number_of_beams) h
    obtain ⟨h3, h⟩ := read_next hσ (x := x.emissionspadding2) (y := y.emissionspadding2) h
    obtain ⟨h4, h⟩ := read_next hσ (x := x.emitter_system) (y := y.emitter_system) h
    obtain ⟨h5, h⟩ := read_next hσ (x := x.location) (y := y.location) h
    obtain ⟨h6, h⟩ := read_next hσ (x := x.beam_data_records) (y := y.beam_data_records) h
    refine ⟨?_, read_end h⟩
    show ElectromagneticEmissionSystemData.mk (calm x.system_data_length) (calm x.number_of_beams) (calm
      x.emissionspadding2) (calm x.emitter_system) (calm x.location) (calm x.beam_data_records) =
      ElectromagneticEmissionSystemData.mk (calm y.system_data_length) (calm y.number_of_beams) (calm
      y.emissionspadding2) (calm y.emitter_system) (calm y.location) (calm y.beam_data_records)
    rw [h1, h2, h3, h4, h5, h6]
instance : Legible EntityMarking where
  starts _ _ := structText_starts (by decide +kernel) _
  line hσ ha x := structText_line ha (by decide +kernel) <|
    field_line (by decide +kernel) (Legible.line hσ ha x.entity_marking_character_set) <|
    field_line (by decide +kernel) (Legible.line hσ ha x.entity_marking_string) <|
    no_field_line
  same _ _ := rfl
  reads {σ} hσ {x y r r'} _ _ h := by
    have h : structText σ "EntityMarking" [
    ("entity_marking_character_set", text σ x.entity_marking_character_set),
  ("entity_marking_string", text σ x.entity_marking_string)] ++ r =
      structText σ "EntityMarking" [
    ("entity_marking_character_set", text σ y.entity_marking_character_set),
  ("entity_marking_string", text σ y.entity_marking_string)] ++ r' := h
    obtain ⟨h1, h⟩ := read_first hσ (x := x.entity_marking_character_set) (y := y.entity_marking_character_set) h
    obtain ⟨h2, h⟩ := read_next hσ (x := x.entity_marking_string) (y := y.entity_marking_string) h
    refine ⟨?_, read_end h⟩
    show EntityMarking.mk (calm x.entity_marking_character_set) (calm x.entity_marking_string) = EntityMarking.mk
      (calm y.entity_marking_character_set) (calm y.entity_marking_string)
    rw [h1, h2]
instance : Legible EntityType where
  starts _ _ := structText_starts (by decide +kernel) _
  line hσ ha x := structText_line ha (by decide +kernel) <|
    field_line (by decide +kernel) (Legible.line hσ ha x.kind) <|
    field_line (by decide +kernel) (Legible.line hσ ha x.domain) <|
    field_line (by decide +kernel) (Legible.line hσ ha x.country) <|
    field_line (by decide +kernel) (Legible.line hσ ha x.category) <|
    field_line (by decide +kernel) (Legible.line hσ ha x.subcategory) <|
    field_line (by decide +kernel) (Legible.line hσ ha x.specific) <|
    field_line (by decide +kernel) (Legible.line hσ ha x.extra) <|
    no_field_line
  same _ _ := rfl
  reads {σ} hσ {x y r r'} _ _ h := by
    have h : structText σ "EntityType" [
    ("kind", text σ x.kind), ("domain", text σ x.domain), ("country", text σ x.country),
  ("category", text σ x.category), ("subcategory", text σ x.subcategory), ("specific", text σ x.specific),
  ("extra", text σ x.extra)] ++ r =
      structText σ "EntityType" [
    ("kind", text σ y.kind), ("domain", text σ y.domain), ("country", text σ y.country),
  ("category", text σ y.category), ("subcategory", text σ y.subcategory), ("specific", text σ y.specific),
  ("extra", text σ y.extra)] ++ r' := h
    obtain ⟨h1, h⟩ := read_first hσ (x := x.kind) (y := y.kind) h
    obtain ⟨h2, h⟩ := read_next hσ (x := x.domain) (y := y.domain) h
    obtain ⟨h3, h⟩ := read_next hσ (x := x.country) (y := y.country) h
    obtain ⟨h4, h⟩ := read_next hσ (x := x.category) (y := y.category) h
    obtain ⟨h5, h⟩ := read_next hσ (x := x.subcategory) (y := y.subcategory) h
    obtain ⟨h6, h⟩ := read_next hσ (x := x.specific) (y := y.specific) h
    obtain ⟨h7, h⟩ := read_next hσ (x := x.extra) (y := y.extra) h
    refine ⟨?_, read_end h⟩
    show EntityType.mk (calm x.kind) (calm x.domain) (calm x.country) (calm x.category) (calm x.subcategory) (calm
      x.specific) (calm x.extra) = EntityType.mk (calm y.kind) (calm y.domain) (calm y.country) (calm y.category)
      (calm y.subcategory) (calm y.specific) (calm y.extra)
    rw [h1, h2, h3, h4, h5, h6, h7]
instance : Legible Environment where
  starts _ _ := structText_starts (by decide +kernel) _
  line hσ ha x := structText_line ha (by decide +kernel) <|
    field_line (by decide +kernel) (Legible.line hσ ha x.environment_type) <|
    field_line (by decide +kernel) (Legible.line hσ ha x.length) <|
    field_line (by decide +kernel) (Legible.line hσ ha x.index) <|
    field_line (by decide +kernel) (Legible.line hσ ha x.padding) <|
    no_field_line
  same _ _ := rfl
  reads {σ} hσ {x y r r'} _ _ h := by
    have h : structText σ "Environment" [
    ("environment_type", text σ x.environment_type), ("length", text σ x.length), ("index", text σ x.index),
  ("padding", text σ x.padding)] ++ r =
      structText σ "Environment" [
    ("environment_type", text σ y.environment_type), ("length", text σ y.length), ("index", text σ y.index),
  ("padding", text σ y.padding)] ++ r' := h
    obtain ⟨h1, h⟩ := read_first hσ (x := x.environment_type) (y := y.environment_type) h
    obtain ⟨h2, h⟩ := read_next hσ (x := x.length) (y := y.length) h
    obtain ⟨h3, h⟩ := read_next hσ (x := x.index) (y := y.index) h
    obtain ⟨h4, h⟩ := read_next hσ (x := x.padding) (y := y.padding) h
    refine ⟨?_, read_end h⟩
    show Environment.mk (calm x.environment_type) (calm x.length) (calm x.index) (calm x.padding) = Environment.mk
      (calm y.environment_type) (calm y.length) (calm y.index) (calm y.padding)
    rw [h1, h2, h3, h4]
instance : Legible EulerAngles where
  starts _ _ := structText_starts (by decide +kernel) _
  line hσ ha x := structText_line ha (by decide +kernel) <|
    field_line (by decide +kernel) (Legible.line hσ ha x.psi) <|
    field_line (by decide +kernel) (Legible.line hσ ha x.theta) <|
    field_line (by decide +kernel) (Legible.line hσ ha x.phi) <|
    no_field_line
  same {σ} hσ x := by
    show structText σ "EulerAngles" [
    ("psi", text σ (calm x.psi)), ("theta", text σ (calm x.theta)), ("phi", text σ (calm x.phi))] =
      structText σ "EulerAngles" [
    ("psi", text σ x.psi), ("theta", text σ x.theta), ("phi", text σ x.phi)]
    simp only [Legible.same hσ]
  reads {σ} hσ {x y r r'} _ _ h := by
    have h : structText σ "EulerAngles" [
    ("psi", text σ x.psi), ("theta", text σ x.theta), ("phi", text σ x.phi)] ++ r =
      structText σ "EulerAngles" [
    ("psi", text σ y.psi), ("theta", text σ y.theta), ("phi", text σ y.phi)] ++ r' := h
    obtain ⟨h1, h⟩ := read_first hσ (x := x.psi) (y := y.psi) h
    obtain ⟨h2, h⟩ := read_next hσ (x := x.theta) (y := y.theta) h
    obtain ⟨h3, h⟩ := read_next hσ (x := x.phi) (y := y.phi) h
    refine ⟨?_, read_end h⟩
    show EulerAngles.mk (calm x.psi) (calm x.theta) (calm x.phi) = EulerAngles.mk (calm y.psi) (calm y.theta) (calm
      y.phi)
    rw [h1, h2, h3]
instance : Legible FundamentalOperationalData where
  starts _ _ := structText_starts (by decide +kernel) _
  line hσ ha x := structText_line ha (by decide +kernel) <|
    field_line (by decide +kernel) (Legible.line hσ ha x.system_status) <|
    field_line (by decide +kernel) (Legible.line hσ ha x.data_field1) <|
    field_line (by decide +kernel) (Legible.line hσ ha x.information_layers) <|
    field_line (by decide +kernel) (Legible.line hσ ha x.data_field2) <|
    field_line (by decide +kernel) (Legible.line hσ ha x.parameter1) <|
    field_line (by decide +kernel) (Legible.line hσ ha x.parameter2) <|
    field_line (by decide +kernel) (Legible.line hσ ha x.parameter3) <|
    field_line (by decide +kernel) (Legible.line hσ ha x.parameter4) <|
    field_line (by decide +kernel) (Legible.line hσ ha x.parameter5) <|
    field_line (by decide +kernel) (Legible.line hσ ha x.parameter6) <|
    no_field_line
  same _ _ := rfl
  reads {σ} hσ {x y r r'} _ _ h := by
    have h : structText σ "FundamentalOperationalData" [
    ("system_status", text σ x.system_status), ("data_field1", text σ x.data_field1),
  ("information_layers", text σ x.information_layers), ("data_field2", text σ x.data_field2),
  ("parameter1", text σ x.parameter1), ("parameter2", text σ x.parameter2), ("parameter3", text σ x.parameter3),
  ("parameter4", text σ x.parameter4), ("parameter5", text σ x.parameter5), ("parameter6", text σ x.parameter6)] ++ r =
      structText σ "FundamentalOperationalData" [
    ("system_status", text σ y.system_status), ("data_field1", text σ y.data_field1),
  ("information_layers", text σ y.information_layers), ("data_field2", text σ y.data_field2),
  ("parameter1", text σ y.parameter1), ("parameter2", text σ y.parameter2), ("parameter3", text σ y.parameter3),
  ("parameter4", text σ y.parameter4), ("parameter5", text σ y.parameter5), ("parameter6", text σ y.parameter6)] ++ r' := h
    obtain ⟨h1, h⟩ := read_first hσ (x := x.system_status) (y := y.system_status) h
    obtain ⟨h2, h⟩ := read_next hσ (x := x.data_field1) (y := y.data_field1) h
    obtain ⟨h3, h⟩ := read_next hσ (x := x.information_layers) (y := y.information_layers) h
    obtain ⟨h4, h⟩ := read_next hσ (x := x.data_field2) (y := y.data_field2) h
    obtain ⟨h5, h⟩ := read_next hσ (x := x.parameter1) (y := y.parameter1) h
    obtain ⟨h6, h⟩ := read_next hσ (x := x.parameter2) (y := y.parameter2) h
    obtain ⟨h7, h⟩ := read_next hσ (x := x.parameter3) (y := y.parameter3) h
    obtain ⟨h8, h⟩ := read_next hσ (x := x.parameter4) (y := y.parameter4) h
    obtain ⟨h9, h⟩ := read_next hσ (x := x.parameter5) (y := y.parameter5) h
    obtain ⟨h10, h⟩ := read_next hσ (x := x.parameter6) (y := y.parameter6) h
    refine ⟨?_, read_end h⟩
    show FundamentalOperationalData.mk (calm x.system_status) (calm x.data_field1) (calm x.information_layers) (calm
      x.data_field2) (calm x.parameter1) (calm x.parameter2) (calm x.parameter3) (calm x.parameter4) (calm
      x.parameter5) (calm x.parameter6) = FundamentalOperationalData.mk (calm y.system_status) (calm y.data_field1)
      (calm y.information_layers) (calm y.data_field2) (calm y.parameter1) (calm y.parameter2) (calm y.parameter3)
      (calm y.parameter4) (calm y.parameter5) (calm y.parameter6)
    rw [h1, h2, h3, h4, h5, h6, h7, h8, h9, h10]
instance : Legible GridAxisDescriptor where
  starts _ _ := structText_starts (by decide +kernel) _
  line hσ ha x := structText_line ha (by decide +kernel) <|
    field_line (by decide +kernel) (Legible.line hσ ha x.domain_initial) <|
    field_line (by decide +kernel) (Legible.line hσ ha x.domain_final) <|
    field_line (by decide +kernel) (Legible.line hσ ha x.domain_points) <|
    field_line (by decide +kernel) (Legible.line hσ ha x.interleaf_factor) <|
    field_line (by decide +kernel) (Legible.line hσ ha x.axis_type) <|
    field_line (by decide +kernel) (Legible.line hσ ha x.data) <|
    no_field_line
  same {σ} hσ x := by
    show structText σ "GridAxisDescriptor" [
    ("domain_initial", text σ (calm x.domain_initial)), ("domain_final", text σ (calm x.domain_final)),
  ("domain_points", text σ (calm x.domain_points)), ("interleaf_factor", text σ (calm x.interleaf_factor)),
  ("axis_type", text σ (calm x.axis_type)), ("data", text σ (calm x.data))] =
      structText σ "GridAxisDescriptor" [
    ("domain_initial", text σ x.domain_initial), ("domain_final", text σ x.domain_final),
  ("domain_points", text σ x.domain_points), ("interleaf_factor", text σ x.interleaf_factor),
  ("axis_type", text σ x.axis_type), ("data", text σ x.data)]
    simp only [Legible.same hσ]
  reads {σ} hσ {x y r r'} _ _ h := by
    have h : structText σ "GridAxisDescriptor" [
    ("domain_initial", text σ x.domain_initial), ("domain_final", text σ x.domain_final),
  ("domain_points", text σ x.domain_points), ("interleaf_factor", text σ x.interleaf_factor),
  ("axis_type", text σ x.axis_type), ("data", text σ x.data)] ++ r =
      structText σ "GridAxisDescriptor" [
    ("domain_initial", text σ y.domain_initial), ("domain_final", text σ y.domain_final),
  ("domain_points", text σ y.domain_points), ("interleaf_factor", text σ y.interleaf_factor),
  ("axis_type", text σ y.axis_type), ("data", text σ y.data)] ++ r' := h
    obtain ⟨h1, h⟩ := read_first hσ (x := x.domain_initial) (y := y.domain_initial) h
    obtain ⟨h2, h⟩ := read_next hσ (x := x.domain_final) (y := y.domain_final) h
    obtain ⟨h3, h⟩ := read_next hσ (x := x.domain_points) (y := y.domain_points) h
    obtain ⟨h4, h⟩ := read_next hσ (x := x.interleaf_factor) (y := y.interleaf_factor) h
    obtain ⟨h5, h⟩ := read_next hσ (x := x.axis_type) (y := y.axis_type) h
    obtain ⟨h6, h⟩ := read_next hσ (x := x.data) (y := y.data) h
    refine ⟨?_, read_end h⟩
    show GridAxisDescriptor.mk (calm x.domain_initial) (calm x.domain_final) (calm x.domain_points) (calm
      x.interleaf_factor) (calm x.axis_type) (calm x.data) = GridAxisDescriptor.mk (calm y.domain_initial) (calm
      y.domain_final) (calm y.domain_points) (calm y.interleaf_factor) (calm y.axis_type) (calm y.data)
    rw [h1, h2, h3, h4, h5, h6]
instance : Legible GridDataRecord where
  starts _ _ := structText_starts (by decide +kernel) _
  line hσ ha x := structText_line ha (by decide +kernel) <|
    field_line (by decide +kernel) (Legible.line hσ ha x.sample_type) <|
    field_line (by decide +kernel) (Legible.line hσ ha x.data_representation) <|
    field_line (by decide +kernel) (Legible.line hσ ha x.data) <|
    no_field_line
  same {σ} hσ x := by
    show structText σ "GridDataRecord" [
    ("sample_type", text σ (calm x.sample_type)), ("data_representation", text σ (calm x.data_representation)),
  ("data", text σ (calm x.data))] =
      structText σ "GridDataRecord" [
    ("sample_type", text σ x.sample_type), ("data_representation", text σ x.data_representation),
  ("data", text σ x.data)]
    simp only [Legible.same hσ]
  reads {σ} hσ {x y r r'} _ _ h := by
    have h : structText σ "GridDataRecord" [
    ("sample_type", text σ x.sample_type), ("data_representation", text σ x.data_representation),
  ("data", text σ x.data)] ++ r =
      structText σ "GridDataRecord" [
    ("sample_type", text σ y.sample_type), ("data_representation", text σ y.data_representation),
  ("data", text σ y.data)] ++ r' := h
    obtain ⟨h1, h⟩ := read_first hσ (x := x.sample_type) (y := y.sample_type) h
    obtain ⟨h2, h⟩ := read_next hσ (x := x.data_representation) (y := y.data_representation) h
    obtain ⟨h3, h⟩ := read_next hσ (x := x.data) (y := y.data) h
    refine ⟨?_, read_end h⟩
    show GridDataRecord.mk (calm x.sample_type) (calm x.data_representation) (calm x.data) = GridDataRecord.mk (calm
      y.sample_type) (calm y.data_representation) (calm y.data)
    rw [h1, h2, h3]
instance : Legible IFFFundamentalParameterData where
  starts _ _ := structText_starts (by decide +kernel) _
  line hσ ha x := structText_line ha (by decide +kernel) <|
    field_line (by decide +kernel) (Legible.line hσ ha x.erp) <|
    field_line (by decide +kernel) (Legible.line hσ ha x.frequency) <|
    field_line (by decide +kernel) (Legible.line hσ ha x.pgrf) <|
    field_line (by decide +kernel) (Legible.line hσ ha x.pulse_width) <|
    field_line (by decide +kernel) (Legible.line hσ ha x.burst_length) <|
    field_line (by decide +kernel) (Legible.line hσ ha x.applicable_modes) <|
    field_line (by decide +kernel) (Legible.line hσ ha x.system_specific_data) <|
    no_field_line
  same {σ} hσ x := by
    show structText σ "IFFFundamentalParameterData" [
    ("erp", text σ (calm x.erp)), ("frequency", text σ (calm x.frequency)), ("pgrf", text σ (calm x.pgrf)),
  ("pulse_width", text σ (calm x.pulse_width)), ("burst_length", text σ (calm x.burst_length)),
  ("applicable_modes", text σ (calm x.applicable_modes)),
  ("system_specific_data", text σ (calm x.system_specific_data))] =
      structText σ "IFFFundamentalParameterData" [
    ("erp", text σ x.erp), ("frequency", text σ x.frequency), ("pgrf", text σ x.pgrf),
  ("pulse_width", text σ x.pulse_width), ("burst_length", text σ x.burst_length),
  ("applicable_modes", text σ x.applicable_modes), ("system_specific_data", text σ x.system_specific_data)]
    simp only [Legible.same hσ]
  reads {σ} hσ {x y r r'} _ _ h := by
    have h : structText σ "IFFFundamentalParameterData" [
    ("erp", text σ x.erp), ("frequency", text σ x.frequency), ("pgrf", text σ x.pgrf),
  ("pulse_width", text σ x.pulse_width), ("burst_length", text σ x.burst_length),
  ("applicable_modes", text σ x.applicable_modes), ("system_specific_data", text σ x.system_specific_data)] ++ r =
      structText σ "IFFFundamentalParameterData" [
    ("erp", text σ y.erp), ("frequency", text σ y.frequency), ("pgrf", text σ y.pgrf),
  ("pulse_width", text σ y.pulse_width), ("burst_length", text σ y.burst_length),
  ("applicable_modes", text σ y.applicable_modes), ("system_specific_data", text σ y.system_specific_data)] ++ r' := h
    obtain ⟨h1, h⟩ := read_first hσ (x := x.erp) (y := y.erp) h
    obtain ⟨h2, h⟩ := read_next hσ (x := x.frequency) (y := y.frequency) h
    obtain ⟨h3, h⟩ := read_next hσ (x := x.pgrf) (y := y.pgrf) h
    obtain ⟨h4, h⟩ := read_next hσ (x := x.pulse_width) (y := y.pulse_width) h
    obtain ⟨h5, h⟩ := read_next hσ (x := x.burst_length) (y := y.burst_length) h
    obtain ⟨h6, h⟩ := read_next hσ (x := x.applicable_modes) (y := y.applicable_modes) h
    obtain ⟨h7, h⟩ := read_next hσ (x := x.system_specific_data) (y := y.system_specific_data) h
    refine ⟨?_, read_end h⟩
    show IFFFundamentalParameterData.mk (calm x.erp) (calm x.frequency) (calm x.pgrf) (calm x.pulse_width) (calm
      x.burst_length) (calm x.applicable_modes) (calm x.system_specific_data) = IFFFundamentalParameterData.mk (calm
      y.erp) (calm y.frequency) (calm y.pgrf) (calm y.pulse_width) (calm y.burst_length) (calm y.applicable_modes)
      (calm y.system_specific_data)
    rw [h1, h2, h3, h4, h5, h6, h7]
instance : Legible IntercomCommunicationsParameters where
  starts _ _ := structText_starts (by decide +kernel) _
  line hσ ha x := structText_line ha (by decide +kernel) <|
    field_line (by decide +kernel) (Legible.line hσ ha x.record_type) <|
    field_line (by decide +kernel) (Legible.line hσ ha x.record_length) <|
    field_line (by decide +kernel) (Legible.line hσ ha x.record_specific_field) <|
    no_field_line
  same _ _ := rfl
  reads {σ} hσ {x y r r'} _ _ h := by
    have h : structText σ "IntercomCommunicationsParameters" [
    ("record_type", text σ x.record_type), ("record_length", text σ x.record_length),
  ("record_specific_field", text σ x.record_specific_field)] ++ r =
      structText σ "IntercomCommunicationsParameters" [
    ("record_type", text σ y.record_type), ("record_length", text σ y.record_length),
  ("record_specific_field", text σ y.record_specific_field)] ++ r' := h
    obtain ⟨h1, h⟩ := read_first hσ (x := x.record_type) (y := y.record_type) h
    obtain ⟨h2, h⟩ := read_next hσ (x := x.record_length) (y := y.record_length) h
    obtain ⟨h3, h⟩ := read_next hσ (x := x.record_specific_field) (y := y.record_specific_field) h
    refine ⟨?_, read_end h⟩
    show IntercomCommunicationsParameters.mk (calm x.record_type) (calm x.record_length) (calm
      x.record_specific_field) = IntercomCommunicationsParameters.mk (calm y.record_type) (calm y.record_length) (calm
      y.record_specific_field)
    rw [h1, h2, h3]
instance : Legible LayerHeader where
  starts _ _ := structText_starts (by decide +kernel) _
  line hσ ha x := structText_line ha (by decide +kernel) <|
    field_line (by decide +kernel) (Legible.line hσ ha x.layer_number) <|
    field_line (by decide +kernel) (Legible.line hσ ha x.layer_specific_information) <|
    field_line (by decide +kernel) (Legible.line hσ ha x.length) <|
    no_field_line
  same _ _ := rfl
  reads {σ} hσ {x y r r'} _ _ h := by
    have h : structText σ "LayerHeader" [
    ("layer_number", text σ x.layer_number), ("layer_specific_information", text σ x.layer_specific_information),
  ("length", text σ x.length)] ++ r =
      structText σ "LayerHeader" [
    ("layer_number", text σ y.layer_number), ("layer_specific_information", text σ y.layer_specific_information),
  ("length", text σ y.length)] ++ r' := h
    obtain ⟨h1, h⟩ := read_first hσ (x := x.layer_number) (y := y.layer_number) h
    obtain ⟨h2, h⟩ := read_next hσ (x := x.layer_specific_information) (y := y.layer_specific_information) h
    obtain ⟨h3, h⟩ := read_next hσ (x := x.length) (y := y.length) h
    refine ⟨?_, read_end h⟩
    show LayerHeader.mk (calm x.layer_number) (calm x.layer_specific_information) (calm x.length) = LayerHeader.mk
      (calm y.layer_number) (calm y.layer_specific_information) (calm y.length)
    rw [h1, h2, h3]
instance : Legible WorldCoordinate where
  starts _ _ := structText_starts (by decide +kernel) _
  line hσ ha x := structText_line ha (by decide +kernel) <|
    field_line (by decide +kernel) (Legible.line hσ ha x.x) <|
    field_line (by decide +kernel) (Legible.line hσ ha x.y) <|
    field_line (by decide +kernel) (Legible.line hσ ha x.z) <|
    no_field_line
  same {σ} hσ x := by
    show structText σ "WorldCoordinate" [
    ("x", text σ (calm x.x)), ("y", text σ (calm x.y)), ("z", text σ (calm x.z))] =
      structText σ "WorldCoordinate" [
    ("x", text σ x.x), ("y", text σ x.y), ("z", text σ x.z)]
    simp only [Legible.same hσ]
  reads {σ} hσ {x y r r'} _ _ h := by
    have h : structText σ "WorldCoordinate" [
    ("x", text σ x.x), ("y", text σ x.y), ("z", text σ x.z)] ++ r =
      structText σ "WorldCoordinate" [
    ("x", text σ y.x), ("y", text σ y.y), ("z", text σ y.z)] ++ r' := h
    obtain ⟨h1, h⟩ := read_first hσ (x := x.x) (y := y.x) h
    obtain ⟨h2, h⟩ := read_next hσ (x := x.y) (y := y.y) h
    obtain ⟨h3, h⟩ := read_next hσ (x := x.z) (y := y.z) h
    refine ⟨?_, read_end h⟩
    show WorldCoordinate.mk (calm x.x) (calm x.y) (calm x.z) = WorldCoordinate.mk (calm y.x) (calm y.y) (calm y.z)
    rw [h1, h2, h3]
instance : Legible LinearSegmentParameter where
  starts _ _ := structText_starts (by decide +kernel) _
  line hσ ha x := structText_line ha (by decide +kernel) <|
    field_line (by decide +kernel) (Legible.line hσ ha x.segment_number) <|
    field_line (by decide +kernel) (Legible.line hσ ha x.segment_modification) <|
    field_line (by decide +kernel) (Legible.line hσ ha x.general_segment_appearance) <|
    field_line (by decide +kernel) (Legible.line hσ ha x.specific_segment_appearance) <|
    field_line (by decide +kernel) (Legible.line hσ ha x.segment_location) <|
    field_line (by decide +kernel) (Legible.line hσ ha x.segment_orientation) <|
    field_line (by decide +kernel) (Legible.line hσ ha x.segment_length) <|
    field_line (by decide +kernel) (Legible.line hσ ha x.segment_width) <|
    field_line (by decide +kernel) (Legible.line hσ ha x.segment_height) <|
    field_line (by decide +kernel) (Legible.line hσ ha x.segment_depth) <|
    field_line (by decide +kernel) (Legible.line hσ ha x.padding) <|
    no_field_line
  same {σ} hσ x := by
    show structText σ "LinearSegmentParameter" [
    ("segment_number", text σ (calm x.segment_number)),
  ("segment_modification", text σ (calm x.segment_modification)),
  ("general_segment_appearance", text σ (calm x.general_segment_appearance)),
  ("specific_segment_appearance", text σ (calm x.specific_segment_appearance)),
  ("segment_location", text σ (calm x.segment_location)),
  ("segment_orientation", text σ (calm x.segment_orientation)), ("segment_length", text σ (calm x.segment_length)),
  ("segment_width", text σ (calm x.segment_width)), ("segment_height", text σ (calm x.segment_height)),
  ("segment_depth", text σ (calm x.segment_depth)), ("padding", text σ (calm x.padding))] =
      structText σ "LinearSegmentParameter" [
    ("segment_number", text σ x.segment_number), ("segment_modification", text σ x.segment_modification),
  ("general_segment_appearance", text σ x.general_segment_appearance),
  ("specific_segment_appearance", text σ x.specific_segment_appearance),
  ("segment_location", text σ x.segment_location), ("segment_orientation", text σ x.segment_orientation),
  ("segment_length", text σ x.segment_length), ("segment_width", text σ x.segment_width),
  ("segment_height", text σ x.segment_height), ("segment_depth", text σ x.segment_depth),
  ("padding", text σ x.padding)]
    simp only [Legible.same hσ]
  reads {σ} hσ {x y r r'} _ _ h := by
    have h : structText σ "LinearSegmentParameter" [
    ("segment_number", text σ x.segment_number), ("segment_modification", text σ x.segment_modification),
  ("general_segment_appearance", text σ x.general_segment_appearance),
  ("specific_segment_appearance", text σ x.specific_segment_appearance),
  ("segment_location", text σ x.segment_location), ("segment_orientation", text σ x.segment_orientation),
  ("segment_length", text σ x.segment_length), ("segment_width", text σ x.segment_width),
  ("segment_height", text σ x.segment_height), ("segment_depth", text σ x.segment_depth),
  ("padding", text σ x.padding)] ++ r =
      structText σ "LinearSegmentParameter" [
    ("segment_number", text σ y.segment_number), ("segment_modification", text σ y.segment_modification),
  ("general_segment_appearance", text σ y.general_segment_appearance),
  ("specific_segment_appearance", text σ y.specific_segment_appearance),
  ("segment_location", text σ y.segment_location), ("segment_orientation", text σ y.segment_orientation),
  ("segment_length", text σ y.segment_length), ("segment_width", text σ y.segment_width),
  ("segment_height", text σ y.segment_height), ("segment_depth", text σ y.segment_depth),
  ("padding", text σ y.padding)] ++ r' := h
    obtain ⟨h1, h⟩ := read_first hσ (x := x.segment_number) (y := y.segment_number) h
    obtain ⟨h2, h⟩ := read_next hσ (x := x.segment_modification) (y := y.segment_modification) h
    obtain ⟨h3, h⟩ := read_next hσ (x := x.general_segment_appearance) (y := y.general_segment_appearance) h
    obtain ⟨h4, h⟩ := read_next hσ (x := x.specific_segment_appearance) (y := y.specific_segment_appearance) h
    obtain ⟨h5, h⟩ := read_next hσ (x := x.segment_location) (y := y.segment_location) h
    obtain ⟨h6, h⟩ := read_next hσ (x := x.segment_orientation) (y := y.segment_orientation) h
    obtain ⟨h7, h⟩ := read_next hσ (x := x.segment_length) (y := y.segment_length) h
    obtain ⟨h8, h⟩ := read_next hσ (x := x.segment_width) (y := y.segment_width) h
    obtain ⟨h9, h⟩ := read_next hσ (x := x.segment_height) (y := y.segment_height) h
    obtain ⟨h10, h⟩ := read_next hσ (x := x.segment_depth) (y := y.segment_depth) h
    obtain ⟨h11, h⟩ := read_next hσ (x := x.padding) (y := y.padding) h
    refine ⟨?_, read_end h⟩
    show LinearSegmentParameter.mk (calm x.segment_number) (calm x.segment_modification) (calm
      x.general_segment_appearance) (calm x.specific_segment_appearance) (calm x.segment_location) (calm
      x.segment_orientation) (calm x.segment_length) (calm x.segment_width) (calm x.segment_height) (calm
      x.segment_depth) (calm x.padding) = LinearSegmentParameter.mk (calm y.segment_number) (calm
      y.segment_modification) (calm y.general_segment_appearance) (calm y.specific_segment_appearance) (calm
      y.segment_location) (calm y.segment_orientation) (calm y.segment_length) (calm y.segment_width) (calm
      y.segment_height) (calm y.segment_depth) (calm y.padding)
    rw [h1, h2, h3, h4, h5, h6, h7, h8, h9, h10, h11]
instance : Legible LinearVelocity where
  starts _ _ := structText_starts (by decide +kernel) _
  line hσ ha x := structText_line ha (by decide +kernel) <|
    field_line (by decide +kernel) (Legible.line hσ ha x.first_vector_component) <|
    field_line (by decide +kernel) (Legible.line hσ ha x.second_vector_component) <|
    field_line (by decide +kernel) (Legible.line hσ ha x.third_vector_component) <|
    no_field_line
  same {σ} hσ x := by
    show structText σ "LinearVelocity" [
    ("first_vector_component", text σ (calm x.first_vector_component)),
  ("second_vector_component", text σ (calm x.second_vector_component)),
  ("third_vector_component", text σ (calm x.third_vector_component))] =
      structText σ "LinearVelocity" [
    ("first_vector_component", text σ x.first_vector_component),
  ("second_vector_component", text σ x.second_vector_component),
  ("third_vector_component", text σ x.third_vector_component)]
    simp only [Legible.same hσ]
  reads {σ} hσ {x y r r'} _ _ h := by
    have h : structText σ "LinearVelocity" [
    ("first_vector_component", text σ x.first_vector_component),
  ("second_vector_component", text σ x.second_vector_component),
  ("third_vector_component", text σ x.third_vector_component)] ++ r =
      structText σ "LinearVelocity" [
    ("first_vector_component", text σ y.first_vector_component),
  ("second_vector_component", text σ y.second_vector_component),
  ("third_vector_component", text σ y.third_vector_component)] ++ r' := h
    obtain ⟨h1, h⟩ := read_first hσ (x := x.first_vector_component) (y := y.first_vector_component) h
    obtain ⟨h2, h⟩ := read_next hσ (x := x.second_vector_component) (y := y.second_vector_component) h
    obtain ⟨h3, h⟩ := read_next hσ (x := x.third_vector_component) (y := y.third_vector_component) h
    refine ⟨?_, read_end h⟩
    show LinearVelocity.mk (calm x.first_vector_component) (calm x.second_vector_component) (calm
      x.third_vector_component) = LinearVelocity.mk (calm y.first_vector_component) (calm y.second_vector_component)
      (calm y.third_vector_component)
    rw [h1, h2, h3]
instance : Legible MinefieldIdentifier where
  starts _ _ := structText_starts (by decide +kernel) _
  line hσ ha x := structText_line ha (by decide +kernel) <|
    field_line (by decide +kernel) (Legible.line hσ ha x.simulation_address) <|
    field_line (by decide +kernel) (Legible.line hσ ha x.minefield_number) <|
    no_field_line
  same _ _ := rfl
  reads {σ} hσ {x y r r'} _ _ h := by
    have h : structText σ "MinefieldIdentifier" [
    ("simulation_address", text σ x.simulation_address), ("minefield_number", text σ x.minefield_number)] ++ r =
      structText σ "MinefieldIdentifier" [
    ("simulation_address", text σ y.simulation_address), ("minefield_number", text σ y.minefield_number)] ++ r' := h
    obtain ⟨h1, h⟩ := read_first hσ (x := x.simulation_address) (y := y.simulation_address) h
    obtain ⟨h2, h⟩ := read_next hσ (x := x.minefield_number) (y := y.minefield_number) h
    refine ⟨?_, read_end h⟩
    show MinefieldIdentifier.mk (calm x.simulation_address) (calm x.minefield_number) = MinefieldIdentifier.mk (calm
      y.simulation_address) (calm y.minefield_number)
    rw [h1, h2]
instance : Legible ModulationParameters where
  starts _ _ := structText_starts (by decide +kernel) _
  line hσ ha x := structText_line ha (by decide +kernel) <|
    field_line (by decide +kernel) (Legible.line hσ ha x.record_specific_fields) <|
    no_field_line
  same {σ} hσ x := by
    show structText σ "ModulationParameters" [
    ("record_specific_fields", text σ (calm x.record_specific_fields))] =
      structText σ "ModulationParameters" [
    ("record_specific_fields", text σ x.record_specific_fields)]
    simp only [Legible.same hσ]
  reads {σ} hσ {x y r r'} _ _ h := by
    have h : structText σ "ModulationParameters" [
    ("record_specific_fields", text σ x.record_specific_fields)] ++ r =
      structText σ "ModulationParameters" [
    ("record_specific_fields", text σ y.record_specific_fields)] ++ r' := h
    obtain ⟨h1, h⟩ := read_first hσ (x := x.record_specific_fields) (y := y.record_specific_fields) h
    refine ⟨?_, read_end h⟩
    show ModulationParameters.mk (calm x.record_specific_fields) = ModulationParameters.mk (calm
      y.record_specific_fields)
    rw [h1]
instance : Legible ModulationType where
  starts _ _ := structText_starts (by decide +kernel) _
  line hσ ha x := structText_line ha (by decide +kernel) <|
    field_line (by decide +kernel) (Legible.line hσ ha x.spread_spectrum) <|
    field_line (by decide +kernel) (Legible.line hσ ha x.major) <|
    field_line (by decide +kernel) (Legible.line hσ ha x.detail) <|
    field_line (by decide +kernel) (Legible.line hσ ha x.system) <|
    no_field_line
  same _ _ := rfl
  reads {σ} hσ {x y r r'} _ _ h := by
    have h : structText σ "ModulationType" [
    ("spread_spectrum", text σ x.spread_spectrum), ("major", text σ x.major), ("detail", text σ x.detail),
  ("system", text σ x.system)] ++ r =
      structText σ "ModulationType" [
    ("spread_spectrum", text σ y.spread_spectrum), ("major", text σ y.major), ("detail", text σ y.detail),
  ("system", text σ y.system)] ++ r' := h
    obtain ⟨h1, h⟩ := read_first hσ (x := x.spread_spectrum) (y := y.spread_spectrum) h
    obtain ⟨h2, h⟩ := read_next hσ (x := x.major) (y := y.major) h
    obtain ⟨h3, h⟩ := read_next hσ (x := x.detail) (y := y.detail) h
    obtain ⟨h4, h⟩ := read_next hσ (x := x.system) (y := y.system) h
    refine ⟨?_, read_end h⟩
    show ModulationType.mk (calm x.spread_spectrum) (calm x.major) (calm x.detail) (calm x.system) = ModulationType.mk
      (calm y.spread_spectrum) (calm y.major) (calm y.detail) (calm y.system)
    rw [h1, h2, h3, h4]
instance : Legible MunitionDescriptor where
  starts _ _ := structText_starts (by decide +kernel) _
  line hσ ha x := structText_line ha (by decide +kernel) <|
    field_line (by decide +kernel) (Legible.line hσ ha x.munition_type) <|
    field_line (by decide +kernel) (Legible.line hσ ha x.warhead) <|
    field_line (by decide +kernel) (Legible.line hσ ha x.fuse) <|
    field_line (by decide +kernel) (Legible.line hσ ha x.quantity) <|
    field_line (by decide +kernel) (Legible.line hσ ha x.rate) <|
    no_field_line
  same _ _ := rfl
  reads {σ} hσ {x y r r'} _ _ h := by
    have h : structText σ "MunitionDescriptor" [
    ("munition_type", text σ x.munition_type), ("warhead", text σ x.warhead), ("fuse", text σ x.fuse),
  ("quantity", text σ x.quantity), ("rate", text σ x.rate)] ++ r =
      structText σ "MunitionDescriptor" [
    ("munition_type", text σ y.munition_type), ("warhead", text σ y.warhead), ("fuse", text σ y.fuse),
  ("quantity", text σ y.quantity), ("rate", text σ y.rate)] ++ r' := h
    obtain ⟨h1, h⟩ := read_first hσ (x := x.munition_type) (y := y.munition_type) h
    obtain ⟨h2, h⟩ := read_next hσ (x := x.warhead) (y := y.warhead) h
    obtain ⟨h3, h⟩ := read_next hσ (x := x.fuse) (y := y.fuse) h
    obtain ⟨h4, h⟩ := read_next hσ (x := x.quantity) (y := y.quantity) h
    obtain ⟨h5, h⟩ := read_next hσ (x := x.rate) (y := y.rate) h
    refine ⟨?_, read_end h⟩
    show MunitionDescriptor.mk (calm x.munition_type) (calm x.warhead) (calm x.fuse) (calm x.quantity) (calm x.rate) =
      MunitionDescriptor.mk (calm y.munition_type) (calm y.warhead) (calm y.fuse) (calm y.quantity) (calm y.rate)
    rw [h1, h2, h3, h4, h5]
instance : Legible NamedLocation where
  starts _ _ := structText_starts (by decide +kernel) _
  line hσ ha x := structText_line ha (by decide +kernel) <|
    field_line (by decide +kernel) (Legible.line hσ ha x.station_name) <|
    field_line (by decide +kernel) (Legible.line hσ ha x.station_number) <|
    no_field_line
  same _ _ := rfl
  reads {σ} hσ {x y r r'} _ _ h := by
    have h : structText σ "NamedLocation" [
    ("station_name", text σ x.station_name), ("station_number", text σ x.station_number)] ++ r =
      structText σ "NamedLocation" [
    ("station_name", text σ y.station_name), ("station_number", text σ y.station_number)] ++ r' := h
    obtain ⟨h1, h⟩ := read_first hσ (x := x.station_name) (y := y.station_name) h
    obtain ⟨h2, h⟩ := read_next hσ (x := x.station_number) (y := y.station_number) h
    refine ⟨?_, read_end h⟩
    show NamedLocation.mk (calm x.station_name) (calm x.station_number) = NamedLocation.mk (calm y.station_name) (calm
      y.station_number)
    rw [h1, h2]
instance : Legible ObjectIdentifier where
  starts _ _ := structText_starts (by decide +kernel) _
  line hσ ha x := structText_line ha (by decide +kernel) <|
    field_line (by decide +kernel) (Legible.line hσ ha x.simulation_address) <|
    field_line (by decide +kernel) (Legible.line hσ ha x.object_number) <|
    no_field_line
  same _ _ := rfl
  reads {σ} hσ {x y r r'} _ _ h := by
    have h : structText σ "ObjectIdentifier" [
    ("simulation_address", text σ x.simulation_address), ("object_number", text σ x.object_number)] ++ r =
      structText σ "ObjectIdentifier" [
    ("simulation_address", text σ y.simulation_address), ("object_number", text σ y.object_number)] ++ r' := h
    obtain ⟨h1, h⟩ := read_first hσ (x := x.simulation_address) (y := y.simulation_address) h
    obtain ⟨h2, h⟩ := read_next hσ (x := x.object_number) (y := y.object_number) h
    refine ⟨?_, read_end h⟩
    show ObjectIdentifier.mk (calm x.simulation_address) (calm x.object_number) = ObjectIdentifier.mk (calm
      y.simulation_address) (calm y.object_number)
    rw [h1, h2]
instance : Legible ObjectType where
  starts _ _ := structText_starts (by decide +kernel) _
  line hσ ha x := structText_line ha (by decide +kernel) <|
    field_line (by decide +kernel) (Legible.line hσ ha x.domain) <|
    field_line (by decide +kernel) (Legible.line hσ ha x.object_kind) <|
    field_line (by decide +kernel) (Legible.line hσ ha x.category) <|
    field_line (by decide +kernel) (Legible.line hσ ha x.subcategory) <|
    no_field_line
  same _ _ := rfl
  reads {σ} hσ {x y r r'} _ _ h := by
    have h : structText σ "ObjectType" [
    ("domain", text σ x.domain), ("object_kind", text σ x.object_kind), ("category", text σ x.category),
  ("subcategory", text σ x.subcategory)] ++ r =
      structText σ "ObjectType" [
    ("domain", text σ y.domain), ("object_kind", text σ y.object_kind), ("category", text σ y.category),
  ("subcategory", text σ y.subcategory)] ++ r' := h
    obtain ⟨h1, h⟩ := read_first hσ (x := x.domain) (y := y.domain) h
    obtain ⟨h2, h⟩ := read_next hσ (x := x.object_kind) (y := y.object_kind) h
    obtain ⟨h3, h⟩ := read_next hσ (x := x.category) (y := y.category) h
    obtain ⟨h4, h⟩ := read_next hσ (x := x.subcategory) (y := y.subcategory) h
    refine ⟨?_, read_end h⟩
    show ObjectType.mk (calm x.domain) (calm x.object_kind) (calm x.category) (calm x.subcategory) = ObjectType.mk
      (calm y.domain) (calm y.object_kind) (calm y.category) (calm y.subcategory)
    rw [h1, h2, h3, h4]
instance : Legible Point where
  starts _ _ := structText_starts (by decide +kernel) _
  line hσ ha x := structText_line ha (by decide +kernel) <|
    field_line (by decide +kernel) (Legible.line hσ ha x.x) <|
    field_line (by decide +kernel) (Legible.line hσ ha x.y) <|
    no_field_line
  same {σ} hσ x := by
    show structText σ "Point" [
    ("x", text σ (calm x.x)), ("y", text σ (calm x.y))] =
      structText σ "Point" [
    ("x", text σ x.x), ("y", text σ x.y)]
    simp only [Legible.same hσ]
  reads {σ} hσ {x y r r'} _ _ h := by
    have h : structText σ "Point" [
    ("x", text σ x.x), ("y", text σ x.y)] ++ r =
      structText σ "Point" [
    ("x", text σ y.x), ("y", text σ y.y)] ++ r' := h
    obtain ⟨h1, h⟩ := read_first hσ (x := x.x) (y := y.x) h
    obtain ⟨h2, h⟩ := read_next hσ (x := x.y) (y := y.y) h
    refine ⟨?_, read_end h⟩
    show Point.mk (calm x.x) (calm x.y) = Point.mk (calm y.x) (calm y.y)
    rw [h1, h2]
instance : Legible PropulsionSystemData where
  starts _ _ := structText_starts (by decide +kernel) _
  line hσ ha x := structText_line ha (by decide +kernel) <|
    field_line (by decide +kernel) (Legible.line hσ ha x.power_setting) <|
    field_line (by decide +kernel) (Legible.line hσ ha x.engine_rpm) <|
    no_field_line
  same {σ} hσ x := by
    show structText σ "PropulsionSystemData" [
    ("power_setting", text σ (calm x.power_setting)), ("engine_rpm", text σ (calm x.engine_rpm))] =
      structText σ "PropulsionSystemData" [
    ("power_setting", text σ x.power_setting), ("engine_rpm", text σ x.engine_rpm)]
    simp only [Legible.same hσ]
  reads {σ} hσ {x y r r'} _ _ h := by
    have h : structText σ "PropulsionSystemData" [
    ("power_setting", text σ x.power_setting), ("engine_rpm", text σ x.engine_rpm)] ++ r =
      structText σ "PropulsionSystemData" [
    ("power_setting", text σ y.power_setting), ("engine_rpm", text σ y.engine_rpm)] ++ r' := h
    obtain ⟨h1, h⟩ := read_first hσ (x := x.power_setting) (y := y.power_setting) h
    obtain ⟨h2, h⟩ := read_next hσ (x := x.engine_rpm) (y := y.engine_rpm) h
    refine ⟨?_, read_end h⟩
    show PropulsionSystemData.mk (calm x.power_setting) (calm x.engine_rpm) = PropulsionSystemData.mk (calm
      y.power_setting) (calm y.engine_rpm)
    rw [h1, h2]
instance : Legible RadioEntityType where
  starts _ _ := structText_starts (by decide +kernel) _
  line hσ ha x := structText_line ha (by decide +kernel) <|
    field_line (by decide +kernel) (Legible.line hσ ha x.entity_kind) <|
    field_line (by decide +kernel) (Legible.line hσ ha x.domain) <|
    field_line (by decide +kernel) (Legible.line hσ ha x.country) <|
    field_line (by decide +kernel) (Legible.line hσ ha x.category) <|
    field_line (by decide +kernel) (Legible.line hσ ha x.nomenclature_version) <|
    field_line (by decide +kernel) (Legible.line hσ ha x.nomenclature) <|
    no_field_line
  same _ _ := rfl
  reads {σ} hσ {x y r r'} _ _ h := by
    have h : structText σ "RadioEntityType" [
    ("entity_kind", text σ x.entity_kind), ("domain", text σ x.domain), ("country", text σ x.country),
  ("category", text σ x.category), ("nomenclature_version", text σ x.nomenclature_version),
  ("nomenclature", text σ x.nomenclature)] ++ r =
      structText σ "RadioEntityType" [
    ("entity_kind", text σ y.entity_kind), ("domain", text σ y.domain), ("country", text σ y.country),
  ("category", text σ y.category), ("nomenclature_version", text σ y.nomenclature_version),
  ("nomenclature", text σ y.nomenclature)] ++ r' := h
    obtain ⟨h1, h⟩ := read_first hσ (x := x.entity_kind) (y := y.entity_kind) h
    obtain ⟨h2, h⟩ := read_next hσ (x := x.domain) (y := y.domain) h
    obtain ⟨h3, h⟩ := read_next hσ (x := x.country) (y := y.country) h
    obtain ⟨h4, h⟩ := read_next hσ (x := x.category) (y := y.category) h
    obtain ⟨h5, h⟩ := read_next hσ (x := x.nomenclature_version) (y := y.nomenclature_version) h
    obtain ⟨h6, h⟩ := read_next hσ (x := x.nomenclature) (y := y.nomenclature) h
    refine ⟨?_, read_end h⟩
    show RadioEntityType.mk (calm x.entity_kind) (calm x.domain) (calm x.country) (calm x.category) (calm
      x.nomenclature_version) (calm x.nomenclature) = RadioEntityType.mk (calm y.entity_kind) (calm y.domain) (calm
      y.country) (calm y.category) (calm y.nomenclature_version) (calm y.nomenclature)
    rw [h1, h2, h3, h4, h5, h6]
instance : Legible RecordSpecificationElement where
  starts _ _ := structText_starts (by decide +kernel) _
  line hσ ha x := structText_line ha (by decide +kernel) <|
    field_line (by decide +kernel) (Legible.line hσ ha x.record_id) <|
    field_line (by decide +kernel) (Legible.line hσ ha x.record_set_serial_number) <|
    field_line (by decide +kernel) (Legible.line hσ ha x.record_length) <|
    field_line (by decide +kernel) (Legible.line hσ ha x.record_count) <|
    field_line (by decide +kernel) (Legible.line hσ ha x.record_values) <|
    no_field_line
  same {σ} hσ x := by
    show structText σ "RecordSpecificationElement" [
    ("record_id", text σ (calm x.record_id)), ("record_set_serial_number", text σ (calm x.record_set_serial_number)),
  ("record_length", text σ (calm x.record_length)), ("record_count", text σ (calm x.record_count)),
  ("record_values", text σ (calm x.record_values))] =
      structText σ "RecordSpecificationElement" [
    ("record_id", text σ x.record_id), ("record_set_serial_number", text σ x.record_set_serial_number),
  ("record_length", text σ x.record_length), ("record_count", text σ x.record_count),
  ("record_values", text σ x.record_values)]
    simp only [Legible.same hσ]
  reads {σ} hσ {x y r r'} _ _ h := by
    have h : structText σ "RecordSpecificationElement" [
    ("record_id", text σ x.record_id), ("record_set_serial_number", text σ x.record_set_serial_number),
  ("record_length", text σ x.record_length), ("record_count", text σ x.record_count),
  ("record_values", text σ x.record_values)] ++ r =
      structText σ "RecordSpecificationElement" [
    ("record_id", text σ y.record_id), ("record_set_serial_number", text σ y.record_set_serial_number),
  ("record_length", text σ y.record_length), ("record_count", text σ y.record_count),
  ("record_values", text σ y.record_values)] ++ r' := h
    obtain ⟨h1, h⟩ := read_first hσ (x := x.record_id) (y := y.record_id) h
    obtain ⟨h2, h⟩ := read_next hσ (x := x.record_set_serial_number) (y := y.record_set_serial_number) h
    obtain ⟨h3, h⟩ := read_next hσ (x := x.record_length) (y := y.record_length) h
    obtain ⟨h4, h⟩ := read_next hσ (x := x.record_count) (y := y.record_count) h
    obtain ⟨h5, h⟩ := read_next hσ (x := x.record_values) (y := y.record_values) h
    refine ⟨?_, read_end h⟩
    show RecordSpecificationElement.mk (calm x.record_id) (calm x.record_set_serial_number) (calm x.record_length)
      (calm x.record_count) (calm x.record_values) = RecordSpecificationElement.mk (calm y.record_id) (calm
      y.record_set_serial_number) (calm y.record_length) (calm y.record_count) (calm y.record_values)
    rw [h1, h2, h3, h4, h5]
instance : Legible RecordSpecification where
  starts _ _ := structText_starts (by decide +kernel) _
  line hσ ha x := structText_line ha (by decide +kernel) <|
    field_line (by decide +kernel) (Legible.line hσ ha x.number_of_record_sets) <|
    field_line (by decide +kernel) (Legible.line hσ ha x.record_sets) <|
    no_field_line
  same {σ} hσ x := by
    show structText σ "RecordSpecification" [
    ("number_of_record_sets", text σ (calm x.number_of_record_sets)), ("record_sets", text σ (calm x.record_sets))] =
      structText σ "RecordSpecification" [
    ("number_of_record_sets", text σ x.number_of_record_sets), ("record_sets", text σ x.record_sets)]
    simp only [Legible.same hσ]
  reads {σ} hσ {x y r r'} _ _ h := by
    have h : structText σ "RecordSpecification" [
    ("number_of_record_sets", text σ x.number_of_record_sets), ("record_sets", text σ x.record_sets)] ++ r =
      structText σ "RecordSpecification" [
    ("number_of_record_sets", text σ y.number_of_record_sets), ("record_sets", text σ y.record_sets)] ++ r' := h
    obtain ⟨h1, h⟩ := read_first hσ (x := x.number_of_record_sets) (y := y.number_of_record_sets) h
    obtain ⟨h2, h⟩ := read_next hσ (x := x.record_sets) (y := y.record_sets) h
    refine ⟨?_, read_end h⟩
    show RecordSpecification.mk (calm x.number_of_record_sets) (calm x.record_sets) = RecordSpecification.mk (calm
      y.number_of_record_sets) (calm y.record_sets)
    rw [h1, h2]
instance : Legible Relationship where
  starts _ _ := structText_starts (by decide +kernel) _
  line hσ ha x := structText_line ha (by decide +kernel) <|
    field_line (by decide +kernel) (Legible.line hσ ha x.nature) <|
    field_line (by decide +kernel) (Legible.line hσ ha x.position) <|
    no_field_line
  same _ _ := rfl
  reads {σ} hσ {x y r r'} _ _ h := by
    have h : structText σ "Relationship" [
    ("nature", text σ x.nature), ("position", text σ x.position)] ++ r =
      structText σ "Relationship" [
    ("nature", text σ y.nature), ("position", text σ y.position)] ++ r' := h
    obtain ⟨h1, h⟩ := read_first hσ (x := x.nature) (y := y.nature) h
    obtain ⟨h2, h⟩ := read_next hσ (x := x.position) (y := y.position) h
    refine ⟨?_, read_end h⟩
    show Relationship.mk (calm x.nature) (calm x.position) = Relationship.mk (calm y.nature) (calm y.position)
    rw [h1, h2]
instance : Legible SecondaryOperationalData where
  starts _ _ := structText_starts (by decide +kernel) _
  line hσ ha x := structText_line ha (by decide +kernel) <|
    field_line (by decide +kernel) (Legible.line hσ ha x.operational_data1) <|
    field_line (by decide +kernel) (Legible.line hσ ha x.operational_data2) <|
    field_line (by decide +kernel) (Legible.line hσ ha x.number_of_iff_fundamental_parameter_records) <|
    no_field_line
  same _ _ := rfl
  reads {σ} hσ {x y r r'} _ _ h := by
    have h : structText σ "SecondaryOperationalData" [
    ("operational_data1", text σ x.operational_data1), ("operational_data2", text σ x.operational_data2),
  ("number_of_iff_fundamental_parameter_records", text σ x.number_of_iff_fundamental_parameter_records)] ++ r =
      structText σ "SecondaryOperationalData" [
    ("operational_data1", text σ y.operational_data1), ("operational_data2", text σ y.operational_data2),
  ("number_of_iff_fundamental_parameter_records", text σ y.number_of_iff_fundamental_parameter_records)] ++ r' := h
    obtain ⟨h1, h⟩ := read_first hσ (x := x.operational_data1) (y := y.operational_data1) h
    obtain ⟨h2, h⟩ := read_next hσ (x := x.operational_data2) (y := y.operational_data2) h
    obtain ⟨h3, h⟩ := read_next hσ (x := x.number_of_iff_fundamental_parameter_records) (y := y.number_of_iff_fundamental_parameter_records) h
    refine ⟨?_, read_end h⟩
    show SecondaryOperationalData.mk (calm x.operational_data1) (calm x.operational_data2) (calm
      x.number_of_iff_fundamental_parameter_records) = SecondaryOperationalData.mk (calm y.operational_data1) (calm
      y.operational_data2) (calm y.number_of_iff_fundamental_parameter_records)
    rw [h1, h2, h3]
instance : Legible ShaftRPMs where
  starts _ _ := structText_starts (by decide +kernel) _
  line hσ ha x := structText_line ha (by decide +kernel) <|
    field_line (by decide +kernel) (Legible.line hσ ha x.current_shaft_rpms) <|
    field_line (by decide +kernel) (Legible.line hσ ha x.ordered_shaft_rpms) <|
    field_line (by decide +kernel) (Legible.line hσ ha x.shaft_rpm_rate_of_change) <|
    no_field_line
  same _ _ := rfl
  reads {σ} hσ {x y r r'} _ _ h := by
    have h : structText σ "ShaftRPMs" [
    ("current_shaft_rpms", text σ x.current_shaft_rpms), ("ordered_shaft_rpms", text σ x.ordered_shaft_rpms),
  ("shaft_rpm_rate_of_change", text σ x.shaft_rpm_rate_of_change)] ++ r =
      structText σ "ShaftRPMs" [
    ("current_shaft_rpms", text σ y.current_shaft_rpms), ("ordered_shaft_rpms", text σ y.ordered_shaft_rpms),
  ("shaft_rpm_rate_of_change", text σ y.shaft_rpm_rate_of_change)] ++ r' := h
    obtain ⟨h1, h⟩ := read_first hσ (x := x.current_shaft_rpms) (y := y.current_shaft_rpms) h
    obtain ⟨h2, h⟩ := read_next hσ (x := x.ordered_shaft_rpms) (y := y.ordered_shaft_rpms) h
    obtain ⟨h3, h⟩ := read_next hσ (x := x.shaft_rpm_rate_of_change) (y := y.shaft_rpm_rate_of_change) h
    refine ⟨?_, read_end h⟩
    show ShaftRPMs.mk (calm x.current_shaft_rpms) (calm x.ordered_shaft_rpms) (calm x.shaft_rpm_rate_of_change) =
      ShaftRPMs.mk (calm y.current_shaft_rpms) (calm y.ordered_shaft_rpms) (calm y.shaft_rpm_rate_of_change)
    rw [h1, h2, h3]
instance : Legible SimulationIdentifier where
  starts _ _ := structText_starts (by decide +kernel) _
  line hσ ha x := structText_line ha (by decide +kernel) <|
    field_line (by decide +kernel) (Legible.line hσ ha x.simulation_address) <|
    field_line (by decide +kernel) (Legible.line hσ ha x.reference_number) <|
    no_field_line
  same _ _ := rfl
  reads {σ} hσ {x y r r'} _ _ h := by
    have h : structText σ "SimulationIdentifier" [
    ("simulation_address", text σ x.simulation_address), ("reference_number", text σ x.reference_number)] ++ r =
      structText σ "SimulationIdentifier" [
    ("simulation_address", text σ y.simulation_address), ("reference_number", text σ y.reference_number)] ++ r' := h
    obtain ⟨h1, h⟩ := read_first hσ (x := x.simulation_address) (y := y.simulation_address) h
    obtain ⟨h2, h⟩ := read_next hσ (x := x.reference_number) (y := y.reference_number) h
    refine ⟨?_, read_end h⟩
    show SimulationIdentifier.mk (calm x.simulation_address) (calm x.reference_number) = SimulationIdentifier.mk (calm
      y.simulation_address) (calm y.reference_number)
    rw [h1, h2]
instance : Legible StandardVariableRecords where
  starts _ _ := structText_starts (by decide +kernel) _
  line hσ ha x := structText_line ha (by decide +kernel) <|
    field_line (by decide +kernel) (Legible.line hσ ha x.record_type) <|
    field_line (by decide +kernel) (Legible.line hσ ha x.record_length) <|
    field_line (by decide +kernel) (Legible.line hσ ha x.record_specific_fields) <|
    no_field_line
  same {σ} hσ x := by
    show structText σ "StandardVariableRecords" [
    ("record_type", text σ (calm x.record_type)), ("record_length", text σ (calm x.record_length)),
  ("record_specific_fields", text σ (calm x.record_specific_fields))] =
      structText σ "StandardVariableRecords" [
    ("record_type", text σ x.record_type), ("record_length", text σ x.record_length),
  ("record_specific_fields", text σ x.record_specific_fields)]
    simp only [Legible.same hσ]
  reads {σ} hσ {x y r r'} _ _ h := by
    have h : structText σ "StandardVariableRecords" [
    ("record_type", text σ x.record_type), ("record_length", text σ x.record_length),
  ("record_specific_fields", text σ x.record_specific_fields)] ++ r =
      structText σ "StandardVariableRecords" [
    ("record_type", text σ y.record_type), ("record_length", text σ y.record_length),
  ("record_specific_fields", text σ y.record_specific_fields)] ++ r' := h
    obtain ⟨h1, h⟩ := read_first hσ (x := x.record_type) (y := y.record_type) h
    obtain ⟨h2, h⟩ := read_next hσ (x := x.record_length) (y := y.record_length) h
    obtain ⟨h3, h⟩ := read_next hσ (x := x.record_specific_fields) (y := y.record_specific_fields) h
    refine ⟨?_, read_end h⟩
    show StandardVariableRecords.mk (calm x.record_type) (calm x.record_length) (calm x.record_specific_fields) =
      StandardVariableRecords.mk (calm y.record_type) (calm y.record_length) (calm y.record_specific_fields)
    rw [h1, h2, h3]
instance : Legible StandardVariableSpecification where
  starts _ _ := structText_starts (by decide +kernel) _
  line hσ ha x := structText_line ha (by decide +kernel) <|
    field_line (by decide +kernel) (Legible.line hσ ha x.number_of_standard_variable_records) <|
    field_line (by decide +kernel) (Legible.line hσ ha x.standard_variable_records) <|
    no_field_line
  same {σ} hσ x := by
    show structText σ "StandardVariableSpecification" [
    ("number_of_standard_variable_records", text σ (calm x.number_of_standard_variable_records)),
  ("standard_variable_records", text σ (calm x.standard_variable_records))] =
      structText σ "StandardVariableSpecification" [
    ("number_of_standard_variable_records", text σ x.number_of_standard_variable_records),
  ("standard_variable_records", text σ x.standard_variable_records)]
    simp only [Legible.same hσ]
  reads {σ} hσ {x y r r'} _ _ h := by
    have h : structText σ "StandardVariableSpecification" [
    ("number_of_standard_variable_records", text σ x.number_of_standard_variable_records),
  ("standard_variable_records", text σ x.standard_variable_records)] ++ r =
      structText σ "StandardVariableSpecification" [
    ("number_of_standard_variable_records", text σ y.number_of_standard_variable_records),
  ("standard_variable_records", text σ y.standard_variable_records)] ++ r' := h
    obtain ⟨h1, h⟩ := read_first hσ (x := x.number_of_standard_variable_records) (y := y.number_of_standard_variable_records) h
    obtain ⟨h2, h⟩ := read_next hσ (x := x.standard_variable_records) (y := y.standard_variable_records) h
    refine ⟨?_, read_end h⟩
    show StandardVariableSpecification.mk (calm x.number_of_standard_variable_records) (calm
      x.standard_variable_records) = StandardVariableSpecification.mk (calm y.number_of_standard_variable_records)
      (calm y.standard_variable_records)
    rw [h1, h2]
instance : Legible SupplyQuantity where
  starts _ _ := structText_starts (by decide +kernel) _
  line hσ ha x := structText_line ha (by decide +kernel) <|
    field_line (by decide +kernel) (Legible.line hσ ha x.supply_type) <|
    field_line (by decide +kernel) (Legible.line hσ ha x.quantity) <|
    no_field_line
  same {σ} hσ x := by
    show structText σ "SupplyQuantity" [
    ("supply_type", text σ (calm x.supply_type)), ("quantity", text σ (calm x.quantity))] =
      structText σ "SupplyQuantity" [
    ("supply_type", text σ x.supply_type), ("quantity", text σ x.quantity)]
    simp only [Legible.same hσ]
  reads {σ} hσ {x y r r'} _ _ h := by
    have h : structText σ "SupplyQuantity" [
    ("supply_type", text σ x.supply_type), ("quantity", text σ x.quantity)] ++ r =
      structText σ "SupplyQuantity" [
    ("supply_type", text σ y.supply_type), ("quantity", text σ y.quantity)] ++ r' := h
    obtain ⟨h1, h⟩ := read_first hσ (x := x.supply_type) (y := y.supply_type) h
    obtain ⟨h2, h⟩ := read_next hσ (x := x.quantity) (y := y.quantity) h
    refine ⟨?_, read_end h⟩
    show SupplyQuantity.mk (calm x.supply_type) (calm x.quantity) = SupplyQuantity.mk (calm y.supply_type) (calm
      y.quantity)
    rw [h1, h2]
instance : Legible SystemId where
  starts _ _ := structText_starts (by decide +kernel) _
  line hσ ha x := structText_line ha (by decide +kernel) <|
    field_line (by decide +kernel) (Legible.line hσ ha x.system_type) <|
    field_line (by decide +kernel) (Legible.line hσ ha x.system_name) <|
    field_line (by decide +kernel) (Legible.line hσ ha x.system_mode) <|
    field_line (by decide +kernel) (Legible.line hσ ha x.change_options) <|
    no_field_line
  same _ _ := rfl
  reads {σ} hσ {x y r r'} _ _ h := by
    have h : structText σ "SystemId" [
    ("system_type", text σ x.system_type), ("system_name", text σ x.system_name),
  ("system_mode", text σ x.system_mode), ("change_options", text σ x.change_options)] ++ r =
      structText σ "SystemId" [
    ("system_type", text σ y.system_type), ("system_name", text σ y.system_name),
  ("system_mode", text σ y.system_mode), ("change_options", text σ y.change_options)] ++ r' := h
    obtain ⟨h1, h⟩ := read_first hσ (x := x.system_type) (y := y.system_type) h
    obtain ⟨h2, h⟩ := read_next hσ (x := x.system_name) (y := y.system_name) h
    obtain ⟨h3, h⟩ := read_next hσ (x := x.system_mode) (y := y.system_mode) h
    obtain ⟨h4, h⟩ := read_next hσ (x := x.change_options) (y := y.change_options) h
    refine ⟨?_, read_end h⟩
    show SystemId.mk (calm x.system_type) (calm x.system_name) (calm x.system_mode) (calm x.change_options) =
      SystemId.mk (calm y.system_type) (calm y.system_name) (calm y.system_mode) (calm y.change_options)
    rw [h1, h2, h3, h4]
instance : Legible VariableParameter where
  starts _ _ := structText_starts (by decide +kernel) _
  line hσ ha x := structText_line ha (by decide +kernel) <|
    field_line (by decide +kernel) (Legible.line hσ ha x.record_type) <|
    field_line (by decide +kernel) (Legible.line hσ ha x.variable_parameter_field1) <|
    field_line (by decide +kernel) (Legible.line hσ ha x.variable_parameter_field2) <|
    field_line (by decide +kernel) (Legible.line hσ ha x.variable_parameter_field3) <|
    field_line (by decide +kernel) (Legible.line hσ ha x.variable_parameter_field4) <|
    no_field_line
  same {σ} hσ x := by
    show structText σ "VariableParameter" [
    ("record_type", text σ (calm x.record_type)),
  ("variable_parameter_field1", text σ (calm x.variable_parameter_field1)),
  ("variable_parameter_field2", text σ (calm x.variable_parameter_field2)),
  ("variable_parameter_field3", text σ (calm x.variable_parameter_field3)),
  ("variable_parameter_field4", text σ (calm x.variable_parameter_field4))] =
      structText σ "VariableParameter" [
    ("record_type", text σ x.record_type), ("variable_parameter_field1", text σ x.variable_parameter_field1),
  ("variable_parameter_field2", text σ x.variable_parameter_field2),
  ("variable_parameter_field3", text σ x.variable_parameter_field3),
  ("variable_parameter_field4", text σ x.variable_parameter_field4)]
    simp only [Legible.same hσ]
  reads {σ} hσ {x y r r'} _ _ h := by
    have h : structText σ "VariableParameter" [
    ("record_type", text σ x.record_type), ("variable_parameter_field1", text σ x.variable_parameter_field1),
  ("variable_parameter_field2", text σ x.variable_parameter_field2),
  ("variable_parameter_field3", text σ x.variable_parameter_field3),
  ("variable_parameter_field4", text σ x.variable_parameter_field4)] ++ r =
      structText σ "VariableParameter" [
    ("record_type", text σ y.record_type), ("variable_parameter_field1", text σ y.variable_parameter_field1),
  ("variable_parameter_field2", text σ y.variable_parameter_field2),
  ("variable_parameter_field3", text σ y.variable_parameter_field3),
  ("variable_parameter_field4", text σ y.variable_parameter_field4)] ++ r' := h
    obtain ⟨h1, h⟩ := read_first hσ (x := x.record_type) (y := y.record_type) h
    obtain ⟨h2, h⟩ := read_next hσ (x := x.variable_parameter_field1) (y := y.variable_parameter_field1) h
    obtain ⟨h3, h⟩ := read_next hσ (x := x.variable_parameter_field2) (y := y.variable_parameter_field2) h
    obtain ⟨h4, h⟩ := read_next hσ (x := x.variable_parameter_field3) (y := y.variable_parameter_field3) h
    obtain ⟨h5, h⟩ := read_next hσ (x := x.variable_parameter_field4) (y := y.variable_parameter_field4) h
    refine ⟨?_, read_end h⟩
    show VariableParameter.mk (calm x.record_type) (calm x.variable_parameter_field1) (calm
      x.variable_parameter_field2) (calm x.variable_parameter_field3) (calm x.variable_parameter_field4) =
      VariableParameter.mk (calm y.record_type) (calm y.variable_parameter_field1) (calm y.variable_parameter_field2)
      (calm y.variable_parameter_field3) (calm y.variable_parameter_field4)
    rw [h1, h2, h3, h4, h5]
instance : Legible VariableTransmitterParameters where
  starts _ _ := structText_starts (by decide +kernel) _
  line hσ ha x := structText_line ha (by decide +kernel) <|
    field_line (by decide +kernel) (Legible.line hσ ha x.record_type) <|
    field_line (by decide +kernel) (Legible.line hσ ha x.record_length) <|
    field_line (by decide +kernel) (Legible.line hσ ha x.record_specific_fields) <|
    no_field_line
  same {σ} hσ x := by
    show structText σ "VariableTransmitterParameters" [
    ("record_type", text σ (calm x.record_type)), ("record_length", text σ (calm x.record_length)),
  ("record_specific_fields", text σ (calm x.record_specific_fields))] =
      structText σ "VariableTransmitterParameters" [
    ("record_type", text σ x.record_type), ("record_length", text σ x.record_length),
  ("record_specific_fields", text σ x.record_specific_fields)]
    simp only [Legible.same hσ]
  reads {σ} hσ {x y r r'} _ _ h := by
    have h : structText σ "VariableTransmitterParameters" [
    ("record_type", text σ x.record_type), ("record_length", text σ x.record_length),
  ("record_specific_fields", text σ x.record_specific_fields)] ++ r =
      structText σ "VariableTransmitterParameters" [
    ("record_type", text σ y.record_type), ("record_length", text σ y.record_length),
  ("record_specific_fields", text σ y.record_specific_fields)] ++ r' := h
    obtain ⟨h1, h⟩ := read_first hσ (x := x.record_type) (y := y.record_type) h
    obtain ⟨h2, h⟩ := read_next hσ (x := x.record_length) (y := y.record_length) h
    obtain ⟨h3, h⟩ := read_next hσ (x := x.record_specific_fields) (y := y.record_specific_fields) h
    refine ⟨?_, read_end h⟩
    show VariableTransmitterParameters.mk (calm x.record_type) (calm x.record_length) (calm x.record_specific_fields)
      = VariableTransmitterParameters.mk (calm y.record_type) (calm y.record_length) (calm y.record_specific_fields)
    rw [h1, h2, h3]
instance : Legible Vector3Double where
  starts _ _ := structText_starts (by decide +kernel) _
  line hσ ha x := structText_line ha (by decide +kernel) <|
    field_line (by decide +kernel) (Legible.line hσ ha x.x) <|
    field_line (by decide +kernel) (Legible.line hσ ha x.y) <|
    field_line (by decide +kernel) (Legible.line hσ ha x.z) <|
    no_field_line
  same {σ} hσ x := by
    show structText σ "Vector3Double" [
    ("x", text σ (calm x.x)), ("y", text σ (calm x.y)), ("z", text σ (calm x.z))] =
      structText σ "Vector3Double" [
    ("x", text σ x.x), ("y", text σ x.y), ("z", text σ x.z)]
    simp only [Legible.same hσ]
  reads {σ} hσ {x y r r'} _ _ h := by
    have h : structText σ "Vector3Double" [
    ("x", text σ x.x), ("y", text σ x.y), ("z", text σ x.z)] ++ r =
      structText σ "Vector3Double" [
    ("x", text σ y.x), ("y", text σ y.y), ("z", text σ y.z)] ++ r' := h
    obtain ⟨h1, h⟩ := read_first hσ (x := x.x) (y := y.x) h
    obtain ⟨h2, h⟩ := read_next hσ (x := x.y) (y := y.y) h
    obtain ⟨h3, h⟩ := read_next hσ (x := x.z) (y := y.z) h
    refine ⟨?_, read_end h⟩
    show Vector3Double.mk (calm x.x) (calm x.y) (calm x.z) = Vector3Double.mk (calm y.x) (calm y.y) (calm y.z)
    rw [h1, h2, h3]
instance : Legible VectoringNozzleSystemData where
  starts _ _ := structText_starts (by decide +kernel) _
  line hσ ha x := structText_line ha (by decide +kernel) <|
    field_line (by decide +kernel) (Legible.line hσ ha x.horizontal_deflection_angle) <|
    field_line (by decide +kernel) (Legible.line hσ ha x.vertical_deflection_angle) <|
    no_field_line
  same {σ} hσ x := by
    show structText σ "VectoringNozzleSystemData" [
    ("horizontal_deflection_angle", text σ (calm x.horizontal_deflection_angle)),
  ("vertical_deflection_angle", text σ (calm x.vertical_deflection_angle))] =
      structText σ "VectoringNozzleSystemData" [
    ("horizontal_deflection_angle", text σ x.horizontal_deflection_angle),
  ("vertical_deflection_angle", text σ x.vertical_deflection_angle)]
    simp only [Legible.same hσ]
  reads {σ} hσ {x y r r'} _ _ h := by
    have h : structText σ "VectoringNozzleSystemData" [
    ("horizontal_deflection_angle", text σ x.horizontal_deflection_angle),
  ("vertical_deflection_angle", text σ x.vertical_deflection_angle)] ++ r =
      structText σ "VectoringNozzleSystemData" [
    ("horizontal_deflection_angle", text σ y.horizontal_deflection_angle),
  ("vertical_deflection_angle", text σ y.vertical_deflection_angle)] ++ r' := h
    obtain ⟨h1, h⟩ := read_first hσ (x := x.horizontal_deflection_angle) (y := y.horizontal_deflection_angle) h
    obtain ⟨h2, h⟩ := read_next hσ (x := x.vertical_deflection_angle) (y := y.vertical_deflection_angle) h
    refine ⟨?_, read_end h⟩
    show VectoringNozzleSystemData.mk (calm x.horizontal_deflection_angle) (calm x.vertical_deflection_angle) =
      VectoringNozzleSystemData.mk (calm y.horizontal_deflection_angle) (calm y.vertical_deflection_angle)
    rw [h1, h2]
instance : Legible VelocityVector where
  starts _ _ := structText_starts (by decide +kernel) _
  line hσ ha x := structText_line ha (by decide +kernel) <|
    field_line (by decide +kernel) (Legible.line hσ ha x.first_vector_component) <|
    field_line (by decide +kernel) (Legible.line hσ ha x.second_vector_component) <|
    field_line (by decide +kernel) (Legible.line hσ ha x.third_vector_component) <|
    no_field_line
  same {σ} hσ x := by
    show structText σ "VelocityVector" [
    ("first_vector_component", text σ (calm x.first_vector_component)),
  ("second_vector_component", text σ (calm x.second_vector_component)),
  ("third_vector_component", text σ (calm x.third_vector_component))] =
      structText σ "VelocityVector" [
    ("first_vector_component", text σ x.first_vector_component),
  ("second_vector_component", text σ x.second_vector_component),
  ("third_vector_component", text σ x.third_vector_component)]
    simp only [Legible.same hσ]
  reads {σ} hσ {x y r r'} _ _ h := by
    have h : structText σ "VelocityVector" [
    ("first_vector_component", text σ x.first_vector_component),
  ("second_vector_component", text σ x.second_vector_component),
  ("third_vector_component", text σ x.third_vector_component)] ++ r =
      structText σ "VelocityVector" [
    ("first_vector_component", text σ y.first_vector_component),
  ("second_vector_component", text σ y.second_vector_component),
  ("third_vector_component", text σ y.third_vector_component)] ++ r' := h
    obtain ⟨h1, h⟩ := read_first hσ (x := x.first_vector_component) (y := y.first_vector_component) h
    obtain ⟨h2, h⟩ := read_next hσ (x := x.second_vector_component) (y := y.second_vector_component) h
    obtain ⟨h3, h⟩ := read_next hσ (x := x.third_vector_component) (y := y.third_vector_component) h
    refine ⟨?_, read_end h⟩
    show VelocityVector.mk (calm x.first_vector_component) (calm x.second_vector_component) (calm
      x.third_vector_component) = VelocityVector.mk (calm y.first_vector_component) (calm y.second_vector_component)
      (calm y.third_vector_component)
    rw [h1, h2, h3]

end Dis
