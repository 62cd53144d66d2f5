import Verif.Proofs.LayoutKinds
/-
The tables of the five kinds with counted parts fix every field but the counted ones.
-/
set_option maxRecDepth 8000
namespace Dis

theorem TransferOwnershipPdu.agree_rest {x y : TransferOwnershipPdu} (h : Agree TransferOwnershipPdu.slots x y) (r0 : x.record_information = y.record_information) :
    x = y := by
  have h0 := h
  have e0 : x.originating_id = y.originating_id := SimulationIdentifier.agree (Agree.left h0)
  have h1 := Agree.right h0
  have e1 : x.receiving_id = y.receiving_id := SimulationIdentifier.agree (Agree.left h1)
  have h2 := Agree.right h1
  have e2 : x.request_id = y.request_id := agree_u32 (Agree.left h2)
  have h3 := Agree.right h2
  have e3 : x.required_reliability_service = y.required_reliability_service := agree_enum (Agree.left h3)
  have h4 := Agree.right h3
  have e4 : x.transfer_type = y.transfer_type := agree_enum (Agree.left h4)
  have h5 := Agree.right h4
  have e5 : x.transfer_entity_id = y.transfer_entity_id := EntityId.agree (Agree.left h5)
  cases x; cases y
  dsimp only at e0 e1 e2 e3 e4 e5 r0
  subst e0 e1 e2 e3 e4 e5 r0
  rfl

theorem TransferOwnershipPdu.agree_count {x y : TransferOwnershipPdu} (h : Agree TransferOwnershipPdu.slots x y) :
    x.record_information.number_of_record_sets = y.record_information.number_of_record_sets := by
  have h0 := h
  have h1 := Agree.right h0
  have h2 := Agree.right h1
  have h3 := Agree.right h2
  have h4 := Agree.right h3
  have h5 := Agree.right h4
  have h6 := Agree.right h5
  exact agree_u32 (Agree.left (Agree.left h6))

theorem SetRecordReliablePdu.agree_rest {x y : SetRecordReliablePdu} (h : Agree SetRecordReliablePdu.slots x y) (r0 : x.record_sets = y.record_sets) :
    x = y := by
  have h0 := h
  have e0 : x.originating_entity_id = y.originating_entity_id := EntityId.agree (Agree.left h0)
  have h1 := Agree.right h0
  have e1 : x.receiving_entity_id = y.receiving_entity_id := EntityId.agree (Agree.left h1)
  have h2 := Agree.right h1
  have e2 : x.request_id = y.request_id := agree_u32 (Agree.left h2)
  have h3 := Agree.right h2
  have e3 : x.required_reliability_service = y.required_reliability_service := agree_enum (Agree.left h3)
  have h4 := Agree.right h3
  have e4 : x.padding = y.padding := agree_u8 (Agree.left h4)
  have h5 := Agree.right h4
  have e5 : x.padding2 = y.padding2 := agree_u16 (Agree.left h5)
  have h6 := Agree.right h5
  have e6 : x.padding3 = y.padding3 := agree_u32 (Agree.left h6)
  cases x; cases y
  dsimp only at e0 e1 e2 e3 e4 e5 e6 r0
  subst e0 e1 e2 e3 e4 e5 e6 r0
  rfl

theorem SetRecordReliablePdu.agree_count {x y : SetRecordReliablePdu} (h : Agree SetRecordReliablePdu.slots x y) :
    x.record_sets.number_of_record_sets = y.record_sets.number_of_record_sets := by
  have h0 := h
  have h1 := Agree.right h0
  have h2 := Agree.right h1
  have h3 := Agree.right h2
  have h4 := Agree.right h3
  have h5 := Agree.right h4
  have h6 := Agree.right h5
  have h7 := Agree.right h6
  exact agree_u32 (Agree.left (Agree.left h7))

theorem InformationOperationsReportPdu.agree_rest {x y : InformationOperationsReportPdu} (h : Agree InformationOperationsReportPdu.slots x y) (r0 : x.io_records = y.io_records) :
    x = y := by
  have h0 := h
  have e0 : x.originating_simulation_id = y.originating_simulation_id := SimulationIdentifier.agree (Agree.left h0)
  have h1 := Agree.right h0
  have e1 : x.io_simulation_source = y.io_simulation_source := agree_enum (Agree.left h1)
  have h2 := Agree.right h1
  have e2 : x.io_report_type = y.io_report_type := agree_enum (Agree.left h2)
  have h3 := Agree.right h2
  have e3 : x.padding = y.padding := agree_u8 (Agree.left h3)
  have h4 := Agree.right h3
  have e4 : x.io_attacker_entity_id = y.io_attacker_entity_id := EntityId.agree (Agree.left h4)
  have h5 := Agree.right h4
  have e5 : x.primary_target_entity_id = y.primary_target_entity_id := EntityId.agree (Agree.left h5)
  have h6 := Agree.right h5
  have e6 : x.padding2 = y.padding2 := agree_u16 (Agree.left h6)
  have h7 := Agree.right h6
  have e7 : x.padding3 = y.padding3 := agree_u16 (Agree.left h7)
  cases x; cases y
  dsimp only at e0 e1 e2 e3 e4 e5 e6 e7 r0
  subst e0 e1 e2 e3 e4 e5 e6 e7 r0
  rfl

theorem InformationOperationsReportPdu.agree_count {x y : InformationOperationsReportPdu} (h : Agree InformationOperationsReportPdu.slots x y) :
    x.io_records.number_of_standard_variable_records = y.io_records.number_of_standard_variable_records := by
  have h0 := h
  have h1 := Agree.right h0
  have h2 := Agree.right h1
  have h3 := Agree.right h2
  have h4 := Agree.right h3
  have h5 := Agree.right h4
  have h6 := Agree.right h5
  have h7 := Agree.right h6
  have h8 := Agree.right h7
  exact agree_u16 (Agree.left (Agree.left h8))

theorem InformationOperationsActionPdu.agree_rest {x y : InformationOperationsActionPdu} (h : Agree InformationOperationsActionPdu.slots x y) (r0 : x.io_records = y.io_records) :
    x = y := by
  have h0 := h
  have e0 : x.originating_simulation_id = y.originating_simulation_id := SimulationIdentifier.agree (Agree.left h0)
  have h1 := Agree.right h0
  have e1 : x.receiving_simulation_id = y.receiving_simulation_id := SimulationIdentifier.agree (Agree.left h1)
  have h2 := Agree.right h1
  have e2 : x.request_id = y.request_id := agree_u32 (Agree.left h2)
  have h3 := Agree.right h2
  have e3 : x.io_warfare_type = y.io_warfare_type := agree_enum (Agree.left h3)
  have h4 := Agree.right h3
  have e4 : x.io_simulation_source = y.io_simulation_source := agree_enum (Agree.left h4)
  have h5 := Agree.right h4
  have e5 : x.io_action_type = y.io_action_type := agree_enum (Agree.left h5)
  have h6 := Agree.right h5
  have e6 : x.io_action_phase = y.io_action_phase := agree_enum (Agree.left h6)
  have h7 := Agree.right h6
  have e7 : x.padding = y.padding := agree_u32 (Agree.left h7)
  have h8 := Agree.right h7
  have e8 : x.io_attacker_entity_id = y.io_attacker_entity_id := EntityId.agree (Agree.left h8)
  have h9 := Agree.right h8
  have e9 : x.io_primary_target_entity_id = y.io_primary_target_entity_id := EntityId.agree (Agree.left h9)
  have h10 := Agree.right h9
  have e10 : x.padding2 = y.padding2 := agree_u16 (Agree.left h10)
  cases x; cases y
  dsimp only at e0 e1 e2 e3 e4 e5 e6 e7 e8 e9 e10 r0
  subst e0 e1 e2 e3 e4 e5 e6 e7 e8 e9 e10 r0
  rfl

theorem InformationOperationsActionPdu.agree_count {x y : InformationOperationsActionPdu} (h : Agree InformationOperationsActionPdu.slots x y) :
    x.io_records.number_of_standard_variable_records = y.io_records.number_of_standard_variable_records := by
  have h0 := h
  have h1 := Agree.right h0
  have h2 := Agree.right h1
  have h3 := Agree.right h2
  have h4 := Agree.right h3
  have h5 := Agree.right h4
  have h6 := Agree.right h5
  have h7 := Agree.right h6
  have h8 := Agree.right h7
  have h9 := Agree.right h8
  have h10 := Agree.right h9
  have h11 := Agree.right h10
  exact agree_u16 (Agree.left (Agree.left h11))

theorem TransmitterPdu.agree_rest {x y : TransmitterPdu} (h : Agree TransmitterPdu.slots x y) (r0 : x.modulation_parameters = y.modulation_parameters) (r1 : x.antenna_pattern = y.antenna_pattern) (r2 : x.variable_transmitter_parameters = y.variable_transmitter_parameters) :
    x = y := by
  have h0 := h
  have e0 : x.entity_id = y.entity_id := EntityId.agree (Agree.left h0)
  have h1 := Agree.right h0
  have e1 : x.radio_id = y.radio_id := agree_u16 (Agree.left h1)
  have h2 := Agree.right h1
  have e2 : x.radio_entity_type = y.radio_entity_type := RadioEntityType.agree (Agree.left h2)
  have h3 := Agree.right h2
  have e3 : x.transmit_state = y.transmit_state := agree_enum (Agree.left h3)
  have h4 := Agree.right h3
  have e4 : x.input_source = y.input_source := agree_enum (Agree.left h4)
  have h5 := Agree.right h4
  have e5 : x.number_of_variable_transmitter_parameters_records = y.number_of_variable_transmitter_parameters_records := agree_u16 (Agree.left h5)
  have h6 := Agree.right h5
  have e6 : x.antenna_location = y.antenna_location := WorldCoordinate.agree (Agree.left h6)
  have h7 := Agree.right h6
  have e7 : x.relative_antenna_location = y.relative_antenna_location := EntityCoordinateVector.agree (Agree.left h7)
  have h8 := Agree.right h7
  have e8 : x.antenna_pattern_type = y.antenna_pattern_type := agree_enum (Agree.left h8)
  have h9 := Agree.right h8
  have e9 : x.antenna_pattern_length = y.antenna_pattern_length := agree_u16 (Agree.left h9)
  have h10 := Agree.right h9
  have e10 : x.frequency = y.frequency := agree_u64 (Agree.left h10)
  have h11 := Agree.right h10
  have e11 : x.transmit_frequency_bandwidth = y.transmit_frequency_bandwidth := agree_f32 (Agree.left h11)
  have h12 := Agree.right h11
  have e12 : x.power = y.power := agree_f32 (Agree.left h12)
  have h13 := Agree.right h12
  have e13 : x.modulation_type = y.modulation_type := ModulationType.agree (Agree.left h13)
  have h14 := Agree.right h13
  have e14 : x.crypto_system = y.crypto_system := agree_enum (Agree.left h14)
  have h15 := Agree.right h14
  have e15 : x.crypto_key_id = y.crypto_key_id := agree_u16 (Agree.left h15)
  have h16 := Agree.right h15
  have e16 : x.modulation_parameter_length = y.modulation_parameter_length := agree_u8 (Agree.left h16)
  have h17 := Agree.right h16
  have e17 : x.padding = y.padding := agree_u8 (Agree.left h17)
  have h18 := Agree.right h17
  have e18 : x.padding2 = y.padding2 := agree_u16 (Agree.left h18)
  cases x; cases y
  dsimp only at e0 e1 e2 e3 e4 e5 e6 e7 e8 e9 e10 e11 e12 e13 e14 e15 e16 e17 e18 r0 r1 r2
  subst e0 e1 e2 e3 e4 e5 e6 e7 e8 e9 e10 e11 e12 e13 e14 e15 e16 e17 e18 r0 r1 r2
  rfl

end Dis
