import Verif.Proofs.LegibleBody
/- Generated by tools/gen_printing.py: the texts of the PDUs can be read back. -/
set_option maxRecDepth 4000
namespace Dis

instance : LegibleBody MinefieldStatePdu where
  named := by decide +kernel
  line hσ ha x :=
    field_line (by decide +kernel) (Legible.line hσ ha x.minefield_id) <|
    field_line (by decide +kernel) (Legible.line hσ ha x.minefield_sequence) <|
    field_line (by decide +kernel) (Legible.line hσ ha x.force_id) <|
    field_line (by decide +kernel) (Legible.line hσ ha x.number_of_perimeter_points) <|
    field_line (by decide +kernel) (Legible.line hσ ha x.minefield_type) <|
    field_line (by decide +kernel) (Legible.line hσ ha x.number_of_mine_types) <|
    field_line (by decide +kernel) (Legible.line hσ ha x.minefield_location) <|
    field_line (by decide +kernel) (Legible.line hσ ha x.minefield_orientation) <|
    field_line (by decide +kernel) (Legible.line hσ ha x.appearance) <|
    field_line (by decide +kernel) (Legible.line hσ ha x.protocol_mode) <|
    field_line (by decide +kernel) (Legible.line hσ ha x.perimeter_points) <|
    field_line (by decide +kernel) (Legible.line hσ ha x.mine_type) <|
    no_field_line
  same {σ} hσ x := by
    show [
    ("minefield_id", text σ (calm x.minefield_id)), ("minefield_sequence", text σ (calm x.minefield_sequence)),
  ("force_id", text σ (calm x.force_id)),
  ("number_of_perimeter_points", text σ (calm x.number_of_perimeter_points)),
  ("minefield_type", text σ (calm x.minefield_type)),
  ("number_of_mine_types", text σ (calm x.number_of_mine_types)),
  ("minefield_location", text σ (calm x.minefield_location)),
  ("minefield_orientation", text σ (calm x.minefield_orientation)), ("appearance", text σ (calm x.appearance)),
  ("protocol_mode", text σ (calm x.protocol_mode)), ("perimeter_points", text σ (calm x.perimeter_points)),
  ("mine_type", text σ (calm x.mine_type))] = [
    ("minefield_id", text σ x.minefield_id), ("minefield_sequence", text σ x.minefield_sequence),
  ("force_id", text σ x.force_id), ("number_of_perimeter_points", text σ x.number_of_perimeter_points),
  ("minefield_type", text σ x.minefield_type), ("number_of_mine_types", text σ x.number_of_mine_types),
  ("minefield_location", text σ x.minefield_location), ("minefield_orientation", text σ x.minefield_orientation),
  ("appearance", text σ x.appearance), ("protocol_mode", text σ x.protocol_mode),
  ("perimeter_points", text σ x.perimeter_points), ("mine_type", text σ x.mine_type)]
    simp only [Legible.same hσ]
  reads {σ} hσ {x y r r'} h := by
    have h : fieldsText σ [
    ("minefield_id", text σ x.minefield_id), ("minefield_sequence", text σ x.minefield_sequence),
  ("force_id", text σ x.force_id), ("number_of_perimeter_points", text σ x.number_of_perimeter_points),
  ("minefield_type", text σ x.minefield_type), ("number_of_mine_types", text σ x.number_of_mine_types),
  ("minefield_location", text σ x.minefield_location), ("minefield_orientation", text σ x.minefield_orientation),
  ("appearance", text σ x.appearance), ("protocol_mode", text σ x.protocol_mode),
  ("perimeter_points", text σ x.perimeter_points), ("mine_type", text σ x.mine_type)] ++ r =
      fieldsText σ [
    ("minefield_id", text σ y.minefield_id), ("minefield_sequence", text σ y.minefield_sequence),
  ("force_id", text σ y.force_id), ("number_of_perimeter_points", text σ y.number_of_perimeter_points),
  ("minefield_type", text σ y.minefield_type), ("number_of_mine_types", text σ y.number_of_mine_types),
  ("minefield_location", text σ y.minefield_location), ("minefield_orientation", text σ y.minefield_orientation),
  ("appearance", text σ y.appearance), ("protocol_mode", text σ y.protocol_mode),
  ("perimeter_points", text σ y.perimeter_points), ("mine_type", text σ y.mine_type)] ++ r' := h
    obtain ⟨h1, h⟩ := read_next hσ (x := x.minefield_id) (y := y.minefield_id) h
    obtain ⟨h2, h⟩ := read_next hσ (x := x.minefield_sequence) (y := y.minefield_sequence) h
    obtain ⟨h3, h⟩ := read_next hσ (x := x.force_id) (y := y.force_id) h
    obtain ⟨h4, h⟩ := read_next hσ (x := x.number_of_perimeter_points) (y := y.number_of_perimeter_points) h
    obtain ⟨h5, h⟩ := read_next hσ (x := x.minefield_type) (y := y.minefield_type) h
    obtain ⟨h6, h⟩ := read_next hσ (x := x.number_of_mine_types) (y := y.number_of_mine_types) h
    obtain ⟨h7, h⟩ := read_next hσ (x := x.minefield_location) (y := y.minefield_location) h
    obtain ⟨h8, h⟩ := read_next hσ (x := x.minefield_orientation) (y := y.minefield_orientation) h
    obtain ⟨h9, h⟩ := read_next hσ (x := x.appearance) (y := y.appearance) h
    obtain ⟨h10, h⟩ := read_next hσ (x := x.protocol_mode) (y := y.protocol_mode) h
    obtain ⟨h11, h⟩ := read_next hσ (x := x.perimeter_points) (y := y.perimeter_points) h
    obtain ⟨h12, h⟩ := read_next hσ (x := x.mine_type) (y := y.mine_type) h
    refine ⟨?_, read_end h⟩
    show MinefieldStatePdu.mk (calm x.minefield_id) (calm x.minefield_sequence) (calm x.force_id) (calm
      x.number_of_perimeter_points) (calm x.minefield_type) (calm x.number_of_mine_types) (calm x.minefield_location)
      (calm x.minefield_orientation) (calm x.appearance) (calm x.protocol_mode) (calm x.perimeter_points) (calm
      x.mine_type) = MinefieldStatePdu.mk (calm y.minefield_id) (calm y.minefield_sequence) (calm y.force_id) (calm
      y.number_of_perimeter_points) (calm y.minefield_type) (calm y.number_of_mine_types) (calm y.minefield_location)
      (calm y.minefield_orientation) (calm y.appearance) (calm y.protocol_mode) (calm y.perimeter_points) (calm
      y.mine_type)
    rw [h1, h2, h3, h4, h5, h6, h7, h8, h9, h10, h11, h12]
instance : LegibleBody MinefieldQueryPdu where
  named := by decide +kernel
  line hσ ha x :=
    field_line (by decide +kernel) (Legible.line hσ ha x.minefield_id) <|
    field_line (by decide +kernel) (Legible.line hσ ha x.requesting_entity_id) <|
    field_line (by decide +kernel) (Legible.line hσ ha x.request_id) <|
    field_line (by decide +kernel) (Legible.line hσ ha x.number_of_perimeter_points) <|
    field_line (by decide +kernel) (Legible.line hσ ha x.padding) <|
    field_line (by decide +kernel) (Legible.line hσ ha x.number_of_sensor_types) <|
    field_line (by decide +kernel) (Legible.line hσ ha x.data_filter) <|
    field_line (by decide +kernel) (Legible.line hσ ha x.requested_mine_type) <|
    field_line (by decide +kernel) (Legible.line hσ ha x.requested_perimeter_points) <|
    field_line (by decide +kernel) (Legible.line hσ ha x.sensor_types) <|
    no_field_line
  same {σ} hσ x := by
    show [
    ("minefield_id", text σ (calm x.minefield_id)), ("requesting_entity_id", text σ (calm x.requesting_entity_id)),
  ("request_id", text σ (calm x.request_id)),
  ("number_of_perimeter_points", text σ (calm x.number_of_perimeter_points)), ("padding", text σ (calm x.padding)),
  ("number_of_sensor_types", text σ (calm x.number_of_sensor_types)), ("data_filter", text σ (calm x.data_filter)),
  ("requested_mine_type", text σ (calm x.requested_mine_type)),
  ("requested_perimeter_points", text σ (calm x.requested_perimeter_points)),
  ("sensor_types", text σ (calm x.sensor_types))] = [
    ("minefield_id", text σ x.minefield_id), ("requesting_entity_id", text σ x.requesting_entity_id),
  ("request_id", text σ x.request_id), ("number_of_perimeter_points", text σ x.number_of_perimeter_points),
  ("padding", text σ x.padding), ("number_of_sensor_types", text σ x.number_of_sensor_types),
  ("data_filter", text σ x.data_filter), ("requested_mine_type", text σ x.requested_mine_type),
  ("requested_perimeter_points", text σ x.requested_perimeter_points), ("sensor_types", text σ x.sensor_types)]
    simp only [Legible.same hσ]
  reads {σ} hσ {x y r r'} h := by
    have h : fieldsText σ [
    ("minefield_id", text σ x.minefield_id), ("requesting_entity_id", text σ x.requesting_entity_id),
  ("request_id", text σ x.request_id), ("number_of_perimeter_points", text σ x.number_of_perimeter_points),
  ("padding", text σ x.padding), ("number_of_sensor_types", text σ x.number_of_sensor_types),
  ("data_filter", text σ x.data_filter), ("requested_mine_type", text σ x.requested_mine_type),
  ("requested_perimeter_points", text σ x.requested_perimeter_points), ("sensor_types", text σ x.sensor_types)] ++ r =
      fieldsText σ [
    ("minefield_id", text σ y.minefield_id), ("requesting_entity_id", text σ y.requesting_entity_id),
  ("request_id", text σ y.request_id), ("number_of_perimeter_points", text σ y.number_of_perimeter_points),
  ("padding", text σ y.padding), ("number_of_sensor_types", text σ y.number_of_sensor_types),
  ("data_filter", text σ y.data_filter), ("requested_mine_type", text σ y.requested_mine_type),
  ("requested_perimeter_points", text σ y.requested_perimeter_points), ("sensor_types", text σ y.sensor_types)] ++ r' := h
    obtain ⟨h1, h⟩ := read_next hσ (x := x.minefield_id) (y := y.minefield_id) h
    obtain ⟨h2, h⟩ := read_next hσ (x := x.requesting_entity_id) (y := y.requesting_entity_id) h
    obtain ⟨h3, h⟩ := read_next hσ (x := x.request_id) (y := y.request_id) h
    obtain ⟨h4, h⟩ := read_next hσ (x := x.number_of_perimeter_points) (y := y.number_of_perimeter_points) h
    obtain ⟨h5, h⟩ := read_next hσ (x := x.padding) (y := y.padding) h
    obtain ⟨h6, h⟩ := read_next hσ (x := x.number_of_sensor_types) (y := y.number_of_sensor_types) h
    obtain ⟨h7, h⟩ := read_next hσ (x := x.data_filter) (y := y.data_filter) h
    obtain ⟨h8, h⟩ := read_next hσ (x := x.requested_mine_type) (y := y.requested_mine_type) h
    obtain ⟨h9, h⟩ := read_next hσ (x := x.requested_perimeter_points) (y := y.requested_perimeter_points) h
    obtain ⟨h10, h⟩ := read_next hσ (x := x.sensor_types) (y := y.sensor_types) h
    refine ⟨?_, read_end h⟩
    show MinefieldQueryPdu.mk (calm x.minefield_id) (calm x.requesting_entity_id) (calm x.request_id) (calm
      x.number_of_perimeter_points) (calm x.padding) (calm x.number_of_sensor_types) (calm x.data_filter) (calm
      x.requested_mine_type) (calm x.requested_perimeter_points) (calm x.sensor_types) = MinefieldQueryPdu.mk (calm
      y.minefield_id) (calm y.requesting_entity_id) (calm y.request_id) (calm y.number_of_perimeter_points) (calm
      y.padding) (calm y.number_of_sensor_types) (calm y.data_filter) (calm y.requested_mine_type) (calm
      y.requested_perimeter_points) (calm y.sensor_types)
    rw [h1, h2, h3, h4, h5, h6, h7, h8, h9, h10]
instance : LegibleBody MinefieldDataPdu where
  named := by decide +kernel
  line hσ ha x :=
    field_line (by decide +kernel) (Legible.line hσ ha x.minefield_id) <|
    field_line (by decide +kernel) (Legible.line hσ ha x.requesting_entity_id) <|
    field_line (by decide +kernel) (Legible.line hσ ha x.minefield_sequence_number) <|
    field_line (by decide +kernel) (Legible.line hσ ha x.request_id) <|
    field_line (by decide +kernel) (Legible.line hσ ha x.pdu_sequence_number) <|
    field_line (by decide +kernel) (Legible.line hσ ha x.number_of_pdus) <|
    field_line (by decide +kernel) (Legible.line hσ ha x.number_of_mines_in_this_pdu) <|
    field_line (by decide +kernel) (Legible.line hσ ha x.number_of_sensor_types) <|
    field_line (by decide +kernel) (Legible.line hσ ha x.padding) <|
    field_line (by decide +kernel) (Legible.line hσ ha x.data_filter) <|
    field_line (by decide +kernel) (Legible.line hσ ha x.mine_type) <|
    field_line (by decide +kernel) (Legible.line hσ ha x.sensor_types) <|
    field_line (by decide +kernel) (Legible.line hσ ha x.mine_location) <|
    field_line (by decide +kernel) (Legible.line hσ ha x.ground_burial_depth_offset) <|
    field_line (by decide +kernel) (Legible.line hσ ha x.water_burial_depth_offset) <|
    field_line (by decide +kernel) (Legible.line hσ ha x.snow_burial_depth_offset) <|
    field_line (by decide +kernel) (Legible.line hσ ha x.mine_orientation) <|
    field_line (by decide +kernel) (Legible.line hσ ha x.thermal_contrast) <|
    field_line (by decide +kernel) (Legible.line hσ ha x.reflectance) <|
    field_line (by decide +kernel) (Legible.line hσ ha x.mine_emplacement_time) <|
    field_line (by decide +kernel) (Legible.line hσ ha x.mine_entity_id) <|
    field_line (by decide +kernel) (Legible.line hσ ha x.fusing) <|
    field_line (by decide +kernel) (Legible.line hσ ha x.scalar_detection_coefficient) <|
    field_line (by decide +kernel) (Legible.line hσ ha x.paint_scheme) <|
    field_line (by decide +kernel) (Legible.line hσ ha x.number_of_trip_wires) <|
    field_line (by decide +kernel) (Legible.line hσ ha x.number_of_vertices) <|
    field_line (by decide +kernel) (Legible.line hσ ha x.vertices) <|
    no_field_line
  same {σ} hσ x := by
    show [
    ("minefield_id", text σ (calm x.minefield_id)), ("requesting_entity_id", text σ (calm x.requesting_entity_id)),
  ("minefield_sequence_number", text σ (calm x.minefield_sequence_number)),
  ("request_id", text σ (calm x.request_id)), ("pdu_sequence_number", text σ (calm x.pdu_sequence_number)),
  ("number_of_pdus", text σ (calm x.number_of_pdus)),
  ("number_of_mines_in_this_pdu", text σ (calm x.number_of_mines_in_this_pdu)),
  ("number_of_sensor_types", text σ (calm x.number_of_sensor_types)), ("padding", text σ (calm x.padding)),
  ("data_filter", text σ (calm x.data_filter)), ("mine_type", text σ (calm x.mine_type)),
  ("sensor_types", text σ (calm x.sensor_types)), ("mine_location", text σ (calm x.mine_location)),
  ("ground_burial_depth_offset", text σ (calm x.ground_burial_depth_offset)),
  ("water_burial_depth_offset", text σ (calm x.water_burial_depth_offset)),
  ("snow_burial_depth_offset", text σ (calm x.snow_burial_depth_offset)),
  ("mine_orientation", text σ (calm x.mine_orientation)), ("thermal_contrast", text σ (calm x.thermal_contrast)),
  ("reflectance", text σ (calm x.reflectance)), ("mine_emplacement_time", text σ (calm x.mine_emplacement_time)),
  ("mine_entity_id", text σ (calm x.mine_entity_id)), ("fusing", text σ (calm x.fusing)),
  ("scalar_detection_coefficient", text σ (calm x.scalar_detection_coefficient)),
  ("paint_scheme", text σ (calm x.paint_scheme)), ("number_of_trip_wires", text σ (calm x.number_of_trip_wires)),
  ("number_of_vertices", text σ (calm x.number_of_vertices)), ("vertices", text σ (calm x.vertices))] = [
    ("minefield_id", text σ x.minefield_id), ("requesting_entity_id", text σ x.requesting_entity_id),
  ("minefield_sequence_number", text σ x.minefield_sequence_number), ("request_id", text σ x.request_id),
  ("pdu_sequence_number", text σ x.pdu_sequence_number), ("number_of_pdus", text σ x.number_of_pdus),
  ("number_of_mines_in_this_pdu", text σ x.number_of_mines_in_this_pdu),
  ("number_of_sensor_types", text σ x.number_of_sensor_types), ("padding", text σ x.padding),
  ("data_filter", text σ x.data_filter), ("mine_type", text σ x.mine_type),
  ("sensor_types", text σ x.sensor_types), ("mine_location", text σ x.mine_location),
  ("ground_burial_depth_offset", text σ x.ground_burial_depth_offset),
  ("water_burial_depth_offset", text σ x.water_burial_depth_offset),
  ("snow_burial_depth_offset", text σ x.snow_burial_depth_offset), ("mine_orientation", text σ x.mine_orientation),
  ("thermal_contrast", text σ x.thermal_contrast), ("reflectance", text σ x.reflectance),
  ("mine_emplacement_time", text σ x.mine_emplacement_time), ("mine_entity_id", text σ x.mine_entity_id),
  ("fusing", text σ x.fusing), ("scalar_detection_coefficient", text σ x.scalar_detection_coefficient),
  ("paint_scheme", text σ x.paint_scheme), ("number_of_trip_wires", text σ x.number_of_trip_wires),
  ("number_of_vertices", text σ x.number_of_vertices), ("vertices", text σ x.vertices)]
    simp only [Legible.same hσ]
  reads {σ} hσ {x y r r'} h := by
    have h : fieldsText σ [
    ("minefield_id", text σ x.minefield_id), ("requesting_entity_id", text σ x.requesting_entity_id),
  ("minefield_sequence_number", text σ x.minefield_sequence_number), ("request_id", text σ x.request_id),
  ("pdu_sequence_number", text σ x.pdu_sequence_number), ("number_of_pdus", text σ x.number_of_pdus),
  ("number_of_mines_in_this_pdu", text σ x.number_of_mines_in_this_pdu),
  ("number_of_sensor_types", text σ x.number_of_sensor_types), ("padding", text σ x.padding),
  ("data_filter", text σ x.data_filter), ("mine_type", text σ x.mine_type),
  ("sensor_types", text σ x.sensor_types), ("mine_location", text σ x.mine_location),
  ("ground_burial_depth_offset", text σ x.ground_burial_depth_offset),
  ("water_burial_depth_offset", text σ x.water_burial_depth_offset),
  ("snow_burial_depth_offset", text σ x.snow_burial_depth_offset), ("mine_orientation", text σ x.mine_orientation),
  ("thermal_contrast", text σ x.thermal_contrast), ("reflectance", text σ x.reflectance),
  ("mine_emplacement_time", text σ x.mine_emplacement_time), ("mine_entity_id", text σ x.mine_entity_id),
  ("fusing", text σ x.fusing), ("scalar_detection_coefficient", text σ x.scalar_detection_coefficient),
  ("paint_scheme", text σ x.paint_scheme), ("number_of_trip_wires", text σ x.number_of_trip_wires),
  ("number_of_vertices", text σ x.number_of_vertices), ("vertices", text σ x.vertices)] ++ r =
      fieldsText σ [
    ("minefield_id", text σ y.minefield_id), ("requesting_entity_id", text σ y.requesting_entity_id),
  ("minefield_sequence_number", text σ y.minefield_sequence_number), ("request_id", text σ y.request_id),
  ("pdu_sequence_number", text σ y.pdu_sequence_number), ("number_of_pdus", text σ y.number_of_pdus),
  ("number_of_mines_in_this_pdu", text σ y.number_of_mines_in_this_pdu),
  ("number_of_sensor_types", text σ y.number_of_sensor_types), ("padding", text σ y.padding),
  ("data_filter", text σ y.data_filter), ("mine_type", text σ y.mine_type),
  ("sensor_types", text σ y.sensor_types), ("mine_location", text σ y.mine_location),
  ("ground_burial_depth_offset", text σ y.ground_burial_depth_offset),
  ("water_burial_depth_offset", text σ y.water_burial_depth_offset),
  ("snow_burial_depth_offset", text σ y.snow_burial_depth_offset), ("mine_orientation", text σ y.mine_orientation),
  ("thermal_contrast", text σ y.thermal_contrast), ("reflectance", text σ y.reflectance),
  ("mine_emplacement_time", text σ y.mine_emplacement_time), ("mine_entity_id", text σ y.mine_entity_id),
  ("fusing", text σ y.fusing), ("scalar_detection_coefficient", text σ y.scalar_detection_coefficient),
  ("paint_scheme", text σ y.paint_scheme), ("number_of_trip_wires", text σ y.number_of_trip_wires),
  ("number_of_vertices", text σ y.number_of_vertices), ("vertices", text σ y.vertices)] ++ r' := h
    obtain ⟨h1, h⟩ := read_next hσ (x := x.minefield_id) (y := y.minefield_id) h
    obtain ⟨h2, h⟩ := read_next hσ (x := x.requesting_entity_id) (y := y.requesting_entity_id) h
    obtain ⟨h3, h⟩ := read_next hσ (x := x.minefield_sequence_number) (y := y.minefield_sequence_number) h
    obtain ⟨h4, h⟩ := read_next hσ (x := x.request_id) (y := y.request_id) h
    obtain ⟨h5, h⟩ := read_next hσ (x := x.pdu_sequence_number) (y := y.pdu_sequence_number) h
    obtain ⟨h6, h⟩ := read_next hσ (x := x.number_of_pdus) (y := y.number_of_pdus) h
    obtain ⟨h7, h⟩ := read_next hσ (x := x.number_of_mines_in_this_pdu) (y := y.number_of_mines_in_this_pdu) h
    obtain ⟨h8, h⟩ := read_next hσ (x := x.number_of_sensor_types) (y := y.number_of_sensor_types) h
    obtain ⟨h9, h⟩ := read_next hσ (x := x.padding) (y := y.padding) h
    obtain ⟨h10, h⟩ := read_next hσ (x := x.data_filter) (y := y.data_filter) h
    obtain ⟨h11, h⟩ := read_next hσ (x := x.mine_type) (y := y.mine_type) h
    obtain ⟨h12, h⟩ := read_next hσ (x := x.sensor_types) (y := y.sensor_types) h
    obtain ⟨h13, h⟩ := read_next hσ (x := x.mine_location) (y := y.mine_location) h
    obtain ⟨h14, h⟩ := read_next hσ (x := x.ground_burial_depth_offset) (y := y.ground_burial_depth_offset) h
    obtain ⟨h15, h⟩ := read_next hσ (x := x.water_burial_depth_offset) (y := y.water_burial_depth_offset) h
    obtain ⟨h16, h⟩ := read_next hσ (x := x.snow_burial_depth_offset) (y := y.snow_burial_depth_offset) h
    obtain ⟨h17, h⟩ := read_next hσ (x := x.mine_orientation) (y := y.mine_orientation) h
    obtain ⟨h18, h⟩ := read_next hσ (x := x.thermal_contrast) (y := y.thermal_contrast) h
    obtain ⟨h19, h⟩ := read_next hσ (x := x.reflectance) (y := y.reflectance) h
    obtain ⟨h20, h⟩ := read_next hσ (x := x.mine_emplacement_time) (y := y.mine_emplacement_time) h
    obtain ⟨h21, h⟩ := read_next hσ (x := x.mine_entity_id) (y := y.mine_entity_id) h
    obtain ⟨h22, h⟩ := read_next hσ (x := x.fusing) (y := y.fusing) h
    obtain ⟨h23, h⟩ := read_next hσ (x := x.scalar_detection_coefficient) (y := y.scalar_detection_coefficient) h
    obtain ⟨h24, h⟩ := read_next hσ (x := x.paint_scheme) (y := y.paint_scheme) h
    obtain ⟨h25, h⟩ := read_next hσ (x := x.number_of_trip_wires) (y := y.number_of_trip_wires) h
    obtain ⟨h26, h⟩ := read_next hσ (x := x.number_of_vertices) (y := y.number_of_vertices) h
    obtain ⟨h27, h⟩ := read_next hσ (x := x.vertices) (y := y.vertices) h
    refine ⟨?_, read_end h⟩
    show MinefieldDataPdu.mk (calm x.minefield_id) (calm x.requesting_entity_id) (calm x.minefield_sequence_number)
      (calm x.request_id) (calm x.pdu_sequence_number) (calm x.number_of_pdus) (calm x.number_of_mines_in_this_pdu)
      (calm x.number_of_sensor_types) (calm x.padding) (calm x.data_filter) (calm x.mine_type) (calm x.sensor_types)
      (calm x.mine_location) (calm x.ground_burial_depth_offset) (calm x.water_burial_depth_offset) (calm
      x.snow_burial_depth_offset) (calm x.mine_orientation) (calm x.thermal_contrast) (calm x.reflectance) (calm
      x.mine_emplacement_time) (calm x.mine_entity_id) (calm x.fusing) (calm x.scalar_detection_coefficient) (calm
      x.paint_scheme) (calm x.number_of_trip_wires) (calm x.number_of_vertices) (calm x.vertices) =
      MinefieldDataPdu.mk (calm y.minefield_id) (calm y.requesting_entity_id) (calm y.minefield_sequence_number) (calm
      y.request_id) (calm y.pdu_sequence_number) (calm y.number_of_pdus) (calm y.number_of_mines_in_this_pdu) (calm
      y.number_of_sensor_types) (calm y.padding) (calm y.data_filter) (calm y.mine_type) (calm y.sensor_types) (calm
      y.mine_location) (calm y.ground_burial_depth_offset) (calm y.water_burial_depth_offset) (calm
      y.snow_burial_depth_offset) (calm y.mine_orientation) (calm y.thermal_contrast) (calm y.reflectance) (calm
      y.mine_emplacement_time) (calm y.mine_entity_id) (calm y.fusing) (calm y.scalar_detection_coefficient) (calm
      y.paint_scheme) (calm y.number_of_trip_wires) (calm y.number_of_vertices) (calm y.vertices)
    rw [h1, h2, h3, h4, h5, h6, h7, h8, h9, h10, h11, h12, h13, h14, h15, h16, h17, h18, h19, h20, h21, h22, h23, h24,
      h25, h26, h27]
instance : LegibleBody MinefieldResponseNackPdu where
  named := by decide +kernel
  line hσ ha x :=
    field_line (by decide +kernel) (Legible.line hσ ha x.minefield_id) <|
    field_line (by decide +kernel) (Legible.line hσ ha x.requesting_entity_id) <|
    field_line (by decide +kernel) (Legible.line hσ ha x.request_id) <|
    field_line (by decide +kernel) (Legible.line hσ ha x.number_of_missing_pdus) <|
    field_line (by decide +kernel) (Legible.line hσ ha x.missing_pdu_sequence_numbers) <|
    no_field_line
  same {σ} hσ x := by
    show [
    ("minefield_id", text σ (calm x.minefield_id)), ("requesting_entity_id", text σ (calm x.requesting_entity_id)),
  ("request_id", text σ (calm x.request_id)), ("number_of_missing_pdus", text σ (calm x.number_of_missing_pdus)),
  ("missing_pdu_sequence_numbers", text σ (calm x.missing_pdu_sequence_numbers))] = [
    ("minefield_id", text σ x.minefield_id), ("requesting_entity_id", text σ x.requesting_entity_id),
  ("request_id", text σ x.request_id), ("number_of_missing_pdus", text σ x.number_of_missing_pdus),
  ("missing_pdu_sequence_numbers", text σ x.missing_pdu_sequence_numbers)]
    simp only [Legible.same hσ]
  reads {σ} hσ {x y r r'} h := by
    have h : fieldsText σ [
    ("minefield_id", text σ x.minefield_id), ("requesting_entity_id", text σ x.requesting_entity_id),
  ("request_id", text σ x.request_id), ("number_of_missing_pdus", text σ x.number_of_missing_pdus),
  ("missing_pdu_sequence_numbers", text σ x.missing_pdu_sequence_numbers)] ++ r =
      fieldsText σ [
    ("minefield_id", text σ y.minefield_id), ("requesting_entity_id", text σ y.requesting_entity_id),
  ("request_id", text σ y.request_id), ("number_of_missing_pdus", text σ y.number_of_missing_pdus),
  ("missing_pdu_sequence_numbers", text σ y.missing_pdu_sequence_numbers)] ++ r' := h
    obtain ⟨h1, h⟩ := read_next hσ (x := x.minefield_id) (y := y.minefield_id) h
    obtain ⟨h2, h⟩ := read_next hσ (x := x.requesting_entity_id) (y := y.requesting_entity_id) h
    obtain ⟨h3, h⟩ := read_next hσ (x := x.request_id) (y := y.request_id) h
    obtain ⟨h4, h⟩ := read_next hσ (x := x.number_of_missing_pdus) (y := y.number_of_missing_pdus) h
    obtain ⟨h5, h⟩ := read_next hσ (x := x.missing_pdu_sequence_numbers) (y := y.missing_pdu_sequence_numbers) h
    refine ⟨?_, read_end h⟩
    show MinefieldResponseNackPdu.mk (calm x.minefield_id) (calm x.requesting_entity_id) (calm x.request_id) (calm
      x.number_of_missing_pdus) (calm x.missing_pdu_sequence_numbers) = MinefieldResponseNackPdu.mk (calm
      y.minefield_id) (calm y.requesting_entity_id) (calm y.request_id) (calm y.number_of_missing_pdus) (calm
      y.missing_pdu_sequence_numbers)
    rw [h1, h2, h3, h4, h5]
instance : LegibleBody TransmitterPdu where
  named := by decide +kernel
  line hσ ha x :=
    field_line (by decide +kernel) (Legible.line hσ ha x.entity_id) <|
    field_line (by decide +kernel) (Legible.line hσ ha x.radio_id) <|
    field_line (by decide +kernel) (Legible.line hσ ha x.radio_entity_type) <|
    field_line (by decide +kernel) (Legible.line hσ ha x.transmit_state) <|
    field_line (by decide +kernel) (Legible.line hσ ha x.input_source) <|
    field_line (by decide +kernel) (Legible.line hσ ha x.number_of_variable_transmitter_parameters_records) <|
    field_line (by decide +kernel) (Legible.line hσ ha x.antenna_location) <|
    field_line (by decide +kernel) (Legible.line hσ ha x.relative_antenna_location) <|
    field_line (by decide +kernel) (Legible.line hσ ha x.antenna_pattern_type) <|
    field_line (by decide +kernel) (Legible.line hσ ha x.antenna_pattern_length) <|
    field_line (by decide +kernel) (Legible.line hσ ha x.frequency) <|
    field_line (by decide +kernel) (Legible.line hσ ha x.transmit_frequency_bandwidth) <|
    field_line (by decide +kernel) (Legible.line hσ ha x.power) <|
    field_line (by decide +kernel) (Legible.line hσ ha x.modulation_type) <|
    field_line (by decide +kernel) (Legible.line hσ ha x.crypto_system) <|
    field_line (by decide +kernel) (Legible.line hσ ha x.crypto_key_id) <|
    field_line (by decide +kernel) (Legible.line hσ ha x.modulation_parameter_length) <|
    field_line (by decide +kernel) (Legible.line hσ ha x.padding) <|
    field_line (by decide +kernel) (Legible.line hσ ha x.padding2) <|
    field_line (by decide +kernel) (Legible.line hσ ha x.modulation_parameters) <|
    field_line (by decide +kernel) (Legible.line hσ ha x.antenna_pattern) <|
    field_line (by decide +kernel) (Legible.line hσ ha x.variable_transmitter_parameters) <|
    no_field_line
  same {σ} hσ x := by
    show [
    ("entity_id", text σ (calm x.entity_id)), ("radio_id", text σ (calm x.radio_id)),
  ("radio_entity_type", text σ (calm x.radio_entity_type)), ("transmit_state", text σ (calm x.transmit_state)),
  ("input_source", text σ (calm x.input_source)),
  ("number_of_variable_transmitter_parameters_records", text σ (calm x.number_of_variable_transmitter_parameters_records)),
  ("antenna_location", text σ (calm x.antenna_location)),
  ("relative_antenna_location", text σ (calm x.relative_antenna_location)),
  ("antenna_pattern_type", text σ (calm x.antenna_pattern_type)),
  ("antenna_pattern_length", text σ (calm x.antenna_pattern_length)), ("frequency", text σ (calm x.frequency)),
  ("transmit_frequency_bandwidth", text σ (calm x.transmit_frequency_bandwidth)), ("power", text σ (calm x.power)),
  ("modulation_type", text σ (calm x.modulation_type)), ("crypto_system", text σ (calm x.crypto_system)),
  ("crypto_key_id", text σ (calm x.crypto_key_id)),
  ("modulation_parameter_length", text σ (calm x.modulation_parameter_length)),
  ("padding", text σ (calm x.padding)), ("padding2", text σ (calm x.padding2)),
  ("modulation_parameters", text σ (calm x.modulation_parameters)),
  ("antenna_pattern", text σ (calm x.antenna_pattern)),
  ("variable_transmitter_parameters", text σ (calm x.variable_transmitter_parameters))] = [
    ("entity_id", text σ x.entity_id), ("radio_id", text σ x.radio_id),
  ("radio_entity_type", text σ x.radio_entity_type), ("transmit_state", text σ x.transmit_state),
  ("input_source", text σ x.input_source),
  ("number_of_variable_transmitter_parameters_records", text σ x.number_of_variable_transmitter_parameters_records),
  ("antenna_location", text σ x.antenna_location),
  ("relative_antenna_location", text σ x.relative_antenna_location),
  ("antenna_pattern_type", text σ x.antenna_pattern_type),
  ("antenna_pattern_length", text σ x.antenna_pattern_length), ("frequency", text σ x.frequency),
  ("transmit_frequency_bandwidth", text σ x.transmit_frequency_bandwidth), ("power", text σ x.power),
  ("modulation_type", text σ x.modulation_type), ("crypto_system", text σ x.crypto_system),
  ("crypto_key_id", text σ x.crypto_key_id), ("modulation_parameter_length", text σ x.modulation_parameter_length),
  ("padding", text σ x.padding), ("padding2", text σ x.padding2),
  ("modulation_parameters", text σ x.modulation_parameters), ("antenna_pattern", text σ x.antenna_pattern),
  ("variable_transmitter_parameters", text σ x.variable_transmitter_parameters)]
    simp only [Legible.same hσ]
  reads {σ} hσ {x y r r'} h := by
    have h : fieldsText σ [
    ("entity_id", text σ x.entity_id), ("radio_id", text σ x.radio_id),
  ("radio_entity_type", text σ x.radio_entity_type), ("transmit_state", text σ x.transmit_state),
  ("input_source", text σ x.input_source),
  ("number_of_variable_transmitter_parameters_records", text σ x.number_of_variable_transmitter_parameters_records),
  ("antenna_location", text σ x.antenna_location),
  ("relative_antenna_location", text σ x.relative_antenna_location),
  ("antenna_pattern_type", text σ x.antenna_pattern_type),
  ("antenna_pattern_length", text σ x.antenna_pattern_length), ("frequency", text σ x.frequency),
  ("transmit_frequency_bandwidth", text σ x.transmit_frequency_bandwidth), ("power", text σ x.power),
  ("modulation_type", text σ x.modulation_type), ("crypto_system", text σ x.crypto_system),
  ("crypto_key_id", text σ x.crypto_key_id), ("modulation_parameter_length", text σ x.modulation_parameter_length),
  ("padding", text σ x.padding), ("padding2", text σ x.padding2),
  ("modulation_parameters", text σ x.modulation_parameters), ("antenna_pattern", text σ x.antenna_pattern),
  ("variable_transmitter_parameters", text σ x.variable_transmitter_parameters)] ++ r =
      fieldsText σ [
    ("entity_id", text σ y.entity_id), ("radio_id", text σ y.radio_id),
  ("radio_entity_type", text σ y.radio_entity_type), ("transmit_state", text σ y.transmit_state),
  ("input_source", text σ y.input_source),
  ("number_of_variable_transmitter_parameters_records", text σ y.number_of_variable_transmitter_parameters_records),
  ("antenna_location", text σ y.antenna_location),
  ("relative_antenna_location", text σ y.relative_antenna_location),
  ("antenna_pattern_type", text σ y.antenna_pattern_type),
  ("antenna_pattern_length", text σ y.antenna_pattern_length), ("frequency", text σ y.frequency),
  ("transmit_frequency_bandwidth", text σ y.transmit_frequency_bandwidth), ("power", text σ y.power),
  ("modulation_type", text σ y.modulation_type), ("crypto_system", text σ y.crypto_system),
  ("crypto_key_id", text σ y.crypto_key_id), ("modulation_parameter_length", text σ y.modulation_parameter_length),
  ("padding", text σ y.padding), ("padding2", text σ y.padding2),
  ("modulation_parameters", text σ y.modulation_parameters), ("antenna_pattern", text σ y.antenna_pattern),
  ("variable_transmitter_parameters", text σ y.variable_transmitter_parameters)] ++ r' := h
    obtain ⟨h1, h⟩ := read_next hσ (x := x.entity_id) (y := y.entity_id) h
    obtain ⟨h2, h⟩ := read_next hσ (x := x.radio_id) (y := y.radio_id) h
    obtain ⟨h3, h⟩ := read_next hσ (x := x.radio_entity_type) (y := y.radio_entity_type) h
    obtain ⟨h4, h⟩ := read_next hσ (x := x.transmit_state) (y := y.transmit_state) h
    obtain ⟨h5, h⟩ := read_next hσ (x := x.input_source) (y := y.input_source) h
    obtain ⟨h6, h⟩ := read_next hσ (x := x.number_of_variable_transmitter_parameters_records) (y := y.number_of_variable_transmitter_parameters_records) h
    obtain ⟨h7, h⟩ := read_next hσ (x := x.antenna_location) (y := y.antenna_location) h
    obtain ⟨h8, h⟩ := read_next hσ (x := x.relative_antenna_location) (y := y.relative_antenna_location) h
    obtain ⟨h9, h⟩ := read_next hσ (x := x.antenna_pattern_type) (y := y.antenna_pattern_type) h
    obtain ⟨h10, h⟩ := read_next hσ (x := x.antenna_pattern_length) (y := y.antenna_pattern_length) h
    obtain ⟨h11, h⟩ := read_next hσ (x := x.frequency) (y := y.frequency) h
    obtain ⟨h12, h⟩ := read_next hσ (x := x.transmit_frequency_bandwidth) (y := y.transmit_frequency_bandwidth) h
    obtain ⟨h13, h⟩ := read_next hσ (x := x.power) (y := y.power) h
    obtain ⟨h14, h⟩ := read_next hσ (x := x.modulation_type) (y := y.modulation_type) h
    obtain ⟨h15, h⟩ := read_next hσ (x := x.crypto_system) (y := y.crypto_system) h
    obtain ⟨h16, h⟩ := read_next hσ (x := x.crypto_key_id) (y := y.crypto_key_id) h
    obtain ⟨h17, h⟩ := read_next hσ (x := x.modulation_parameter_length) (y := y.modulation_parameter_length) h
    obtain ⟨h18, h⟩ := read_next hσ (x := x.padding) (y := y.padding) h
    obtain ⟨h19, h⟩ := read_next hσ (x := x.padding2) (y := y.padding2) h
    obtain ⟨h20, h⟩ := read_next hσ (x := x.modulation_parameters) (y := y.modulation_parameters) h
    obtain ⟨h21, h⟩ := read_next hσ (x := x.antenna_pattern) (y := y.antenna_pattern) h
    obtain ⟨h22, h⟩ := read_next hσ (x := x.variable_transmitter_parameters) (y := y.variable_transmitter_parameters) h
    refine ⟨?_, read_end h⟩
    show TransmitterPdu.mk (calm x.entity_id) (calm x.radio_id) (calm x.radio_entity_type) (calm x.transmit_state)
      (calm x.input_source) (calm x.number_of_variable_transmitter_parameters_records) (calm x.antenna_location) (calm
      x.relative_antenna_location) (calm x.antenna_pattern_type) (calm x.antenna_pattern_length) (calm x.frequency)
      (calm x.transmit_frequency_bandwidth) (calm x.power) (calm x.modulation_type) (calm x.crypto_system) (calm
      x.crypto_key_id) (calm x.modulation_parameter_length) (calm x.padding) (calm x.padding2) (calm
      x.modulation_parameters) (calm x.antenna_pattern) (calm x.variable_transmitter_parameters) = TransmitterPdu.mk
      (calm y.entity_id) (calm y.radio_id) (calm y.radio_entity_type) (calm y.transmit_state) (calm y.input_source)
      (calm y.number_of_variable_transmitter_parameters_records) (calm y.antenna_location) (calm
      y.relative_antenna_location) (calm y.antenna_pattern_type) (calm y.antenna_pattern_length) (calm y.frequency)
      (calm y.transmit_frequency_bandwidth) (calm y.power) (calm y.modulation_type) (calm y.crypto_system) (calm
      y.crypto_key_id) (calm y.modulation_parameter_length) (calm y.padding) (calm y.padding2) (calm
      y.modulation_parameters) (calm y.antenna_pattern) (calm y.variable_transmitter_parameters)
    rw [h1, h2, h3, h4, h5, h6, h7, h8, h9, h10, h11, h12, h13, h14, h15, h16, h17, h18, h19, h20, h21, h22]
instance : LegibleBody SignalPdu where
  named := by decide +kernel
  line hσ ha x :=
    field_line (by decide +kernel) (Legible.line hσ ha x.entity_id) <|
    field_line (by decide +kernel) (Legible.line hσ ha x.radio_id) <|
    field_line (by decide +kernel) (Legible.line hσ ha x.encoding_scheme) <|
    field_line (by decide +kernel) (Legible.line hσ ha x.tdl_type) <|
    field_line (by decide +kernel) (Legible.line hσ ha x.sample_rate) <|
    field_line (by decide +kernel) (Legible.line hσ ha x.data_length) <|
    field_line (by decide +kernel) (Legible.line hσ ha x.samples) <|
    field_line (by decide +kernel) (Legible.line hσ ha x.data) <|
    no_field_line
  same {σ} hσ x := by
    show [
    ("entity_id", text σ (calm x.entity_id)), ("radio_id", text σ (calm x.radio_id)),
  ("encoding_scheme", text σ (calm x.encoding_scheme)), ("tdl_type", text σ (calm x.tdl_type)),
  ("sample_rate", text σ (calm x.sample_rate)), ("data_length", text σ (calm x.data_length)),
  ("samples", text σ (calm x.samples)), ("data", text σ (calm x.data))] = [
    ("entity_id", text σ x.entity_id), ("radio_id", text σ x.radio_id),
  ("encoding_scheme", text σ x.encoding_scheme), ("tdl_type", text σ x.tdl_type),
  ("sample_rate", text σ x.sample_rate), ("data_length", text σ x.data_length), ("samples", text σ x.samples),
  ("data", text σ x.data)]
    simp only [Legible.same hσ]
  reads {σ} hσ {x y r r'} h := by
    have h : fieldsText σ [
    ("entity_id", text σ x.entity_id), ("radio_id", text σ x.radio_id),
  ("encoding_scheme", text σ x.encoding_scheme), ("tdl_type", text σ x.tdl_type),
  ("sample_rate", text σ x.sample_rate), ("data_length", text σ x.data_length), ("samples", text σ x.samples),
  ("data", text σ x.data)] ++ r =
      fieldsText σ [
    ("entity_id", text σ y.entity_id), ("radio_id", text σ y.radio_id),
  ("encoding_scheme", text σ y.encoding_scheme), ("tdl_type", text σ y.tdl_type),
  ("sample_rate", text σ y.sample_rate), ("data_length", text σ y.data_length), ("samples", text σ y.samples),
  ("data", text σ y.data)] ++ r' := h
    obtain ⟨h1, h⟩ := read_next hσ (x := x.entity_id) (y := y.entity_id) h
    obtain ⟨h2, h⟩ := read_next hσ (x := x.radio_id) (y := y.radio_id) h
    obtain ⟨h3, h⟩ := read_next hσ (x := x.encoding_scheme) (y := y.encoding_scheme) h
    obtain ⟨h4, h⟩ := read_next hσ (x := x.tdl_type) (y := y.tdl_type) h
    obtain ⟨h5, h⟩ := read_next hσ (x := x.sample_rate) (y := y.sample_rate) h
    obtain ⟨h6, h⟩ := read_next hσ (x := x.data_length) (y := y.data_length) h
    obtain ⟨h7, h⟩ := read_next hσ (x := x.samples) (y := y.samples) h
    obtain ⟨h8, h⟩ := read_next hσ (x := x.data) (y := y.data) h
    refine ⟨?_, read_end h⟩
    show SignalPdu.mk (calm x.entity_id) (calm x.radio_id) (calm x.encoding_scheme) (calm x.tdl_type) (calm
      x.sample_rate) (calm x.data_length) (calm x.samples) (calm x.data) = SignalPdu.mk (calm y.entity_id) (calm
      y.radio_id) (calm y.encoding_scheme) (calm y.tdl_type) (calm y.sample_rate) (calm y.data_length) (calm
      y.samples) (calm y.data)
    rw [h1, h2, h3, h4, h5, h6, h7, h8]
instance : LegibleBody ReceiverPdu where
  named := by decide +kernel
  line hσ ha x :=
    field_line (by decide +kernel) (Legible.line hσ ha x.entity_id) <|
    field_line (by decide +kernel) (Legible.line hσ ha x.radio_id) <|
    field_line (by decide +kernel) (Legible.line hσ ha x.receiver_state) <|
    field_line (by decide +kernel) (Legible.line hσ ha x.padding) <|
    field_line (by decide +kernel) (Legible.line hσ ha x.received_power) <|
    field_line (by decide +kernel) (Legible.line hσ ha x.transmitter_radio_reference_id) <|
    field_line (by decide +kernel) (Legible.line hσ ha x.transmitter_radio_id) <|
    no_field_line
  same {σ} hσ x := by
    show [
    ("entity_id", text σ (calm x.entity_id)), ("radio_id", text σ (calm x.radio_id)),
  ("receiver_state", text σ (calm x.receiver_state)), ("padding", text σ (calm x.padding)),
  ("received_power", text σ (calm x.received_power)),
  ("transmitter_radio_reference_id", text σ (calm x.transmitter_radio_reference_id)),
  ("transmitter_radio_id", text σ (calm x.transmitter_radio_id))] = [
    ("entity_id", text σ x.entity_id), ("radio_id", text σ x.radio_id), ("receiver_state", text σ x.receiver_state),
  ("padding", text σ x.padding), ("received_power", text σ x.received_power),
  ("transmitter_radio_reference_id", text σ x.transmitter_radio_reference_id),
  ("transmitter_radio_id", text σ x.transmitter_radio_id)]
    simp only [Legible.same hσ]
  reads {σ} hσ {x y r r'} h := by
    have h : fieldsText σ [
    ("entity_id", text σ x.entity_id), ("radio_id", text σ x.radio_id), ("receiver_state", text σ x.receiver_state),
  ("padding", text σ x.padding), ("received_power", text σ x.received_power),
  ("transmitter_radio_reference_id", text σ x.transmitter_radio_reference_id),
  ("transmitter_radio_id", text σ x.transmitter_radio_id)] ++ r =
      fieldsText σ [
    ("entity_id", text σ y.entity_id), ("radio_id", text σ y.radio_id), ("receiver_state", text σ y.receiver_state),
  ("padding", text σ y.padding), ("received_power", text σ y.received_power),
  ("transmitter_radio_reference_id", text σ y.transmitter_radio_reference_id),
  ("transmitter_radio_id", text σ y.transmitter_radio_id)] ++ r' := h
    obtain ⟨h1, h⟩ := read_next hσ (x := x.entity_id) (y := y.entity_id) h
    obtain ⟨h2, h⟩ := read_next hσ (x := x.radio_id) (y := y.radio_id) h
    obtain ⟨h3, h⟩ := read_next hσ (x := x.receiver_state) (y := y.receiver_state) h
    obtain ⟨h4, h⟩ := read_next hσ (x := x.padding) (y := y.padding) h
    obtain ⟨h5, h⟩ := read_next hσ (x := x.received_power) (y := y.received_power) h
    obtain ⟨h6, h⟩ := read_next hσ (x := x.transmitter_radio_reference_id) (y := y.transmitter_radio_reference_id) h
    obtain ⟨h7, h⟩ := read_next hσ (x := x.transmitter_radio_id) (y := y.transmitter_radio_id) h
    refine ⟨?_, read_end h⟩
    show ReceiverPdu.mk (calm x.entity_id) (calm x.radio_id) (calm x.receiver_state) (calm x.padding) (calm
      x.received_power) (calm x.transmitter_radio_reference_id) (calm x.transmitter_radio_id) = ReceiverPdu.mk (calm
      y.entity_id) (calm y.radio_id) (calm y.receiver_state) (calm y.padding) (calm y.received_power) (calm
      y.transmitter_radio_reference_id) (calm y.transmitter_radio_id)
    rw [h1, h2, h3, h4, h5, h6, h7]
instance : LegibleBody IntercomSignalPdu where
  named := by decide +kernel
  line hσ ha x :=
    field_line (by decide +kernel) (Legible.line hσ ha x.intercom_reference_id) <|
    field_line (by decide +kernel) (Legible.line hσ ha x.intercom_number) <|
    field_line (by decide +kernel) (Legible.line hσ ha x.encoding_scheme) <|
    field_line (by decide +kernel) (Legible.line hσ ha x.tdl_type) <|
    field_line (by decide +kernel) (Legible.line hσ ha x.sample_rate) <|
    field_line (by decide +kernel) (Legible.line hσ ha x.data_length) <|
    field_line (by decide +kernel) (Legible.line hσ ha x.samples) <|
    field_line (by decide +kernel) (Legible.line hσ ha x.data) <|
    no_field_line
  same {σ} hσ x := by
    show [
    ("intercom_reference_id", text σ (calm x.intercom_reference_id)),
  ("intercom_number", text σ (calm x.intercom_number)), ("encoding_scheme", text σ (calm x.encoding_scheme)),
  ("tdl_type", text σ (calm x.tdl_type)), ("sample_rate", text σ (calm x.sample_rate)),
  ("data_length", text σ (calm x.data_length)), ("samples", text σ (calm x.samples)),
  ("data", text σ (calm x.data))] = [
    ("intercom_reference_id", text σ x.intercom_reference_id), ("intercom_number", text σ x.intercom_number),
  ("encoding_scheme", text σ x.encoding_scheme), ("tdl_type", text σ x.tdl_type),
  ("sample_rate", text σ x.sample_rate), ("data_length", text σ x.data_length), ("samples", text σ x.samples),
  ("data", text σ x.data)]
    simp only [Legible.same hσ]
  reads {σ} hσ {x y r r'} h := by
    have h : fieldsText σ [
    ("intercom_reference_id", text σ x.intercom_reference_id), ("intercom_number", text σ x.intercom_number),
  ("encoding_scheme", text σ x.encoding_scheme), ("tdl_type", text σ x.tdl_type),
  ("sample_rate", text σ x.sample_rate), ("data_length", text σ x.data_length), ("samples", text σ x.samples),
  ("data", text σ x.data)] ++ r =
      fieldsText σ [
    ("intercom_reference_id", text σ y.intercom_reference_id), ("intercom_number", text σ y.intercom_number),
  ("encoding_scheme", text σ y.encoding_scheme), ("tdl_type", text σ y.tdl_type),
  ("sample_rate", text σ y.sample_rate), ("data_length", text σ y.data_length), ("samples", text σ y.samples),
  ("data", text σ y.data)] ++ r' := h
    obtain ⟨h1, h⟩ := read_next hσ (x := x.intercom_reference_id) (y := y.intercom_reference_id) h
    obtain ⟨h2, h⟩ := read_next hσ (x := x.intercom_number) (y := y.intercom_number) h
    obtain ⟨h3, h⟩ := read_next hσ (x := x.encoding_scheme) (y := y.encoding_scheme) h
    obtain ⟨h4, h⟩ := read_next hσ (x := x.tdl_type) (y := y.tdl_type) h
    obtain ⟨h5, h⟩ := read_next hσ (x := x.sample_rate) (y := y.sample_rate) h
    obtain ⟨h6, h⟩ := read_next hσ (x := x.data_length) (y := y.data_length) h
    obtain ⟨h7, h⟩ := read_next hσ (x := x.samples) (y := y.samples) h
    obtain ⟨h8, h⟩ := read_next hσ (x := x.data) (y := y.data) h
    refine ⟨?_, read_end h⟩
    show IntercomSignalPdu.mk (calm x.intercom_reference_id) (calm x.intercom_number) (calm x.encoding_scheme) (calm
      x.tdl_type) (calm x.sample_rate) (calm x.data_length) (calm x.samples) (calm x.data) = IntercomSignalPdu.mk
      (calm y.intercom_reference_id) (calm y.intercom_number) (calm y.encoding_scheme) (calm y.tdl_type) (calm
      y.sample_rate) (calm y.data_length) (calm y.samples) (calm y.data)
    rw [h1, h2, h3, h4, h5, h6, h7, h8]
instance : LegibleBody IntercomControlPdu where
  named := by decide +kernel
  line hσ ha x :=
    field_line (by decide +kernel) (Legible.line hσ ha x.control_type) <|
    field_line (by decide +kernel) (Legible.line hσ ha x.communications_channel_type) <|
    field_line (by decide +kernel) (Legible.line hσ ha x.source_intercom_reference_id) <|
    field_line (by decide +kernel) (Legible.line hσ ha x.source_intercom_number) <|
    field_line (by decide +kernel) (Legible.line hσ ha x.source_line_id) <|
    field_line (by decide +kernel) (Legible.line hσ ha x.transmit_priority) <|
    field_line (by decide +kernel) (Legible.line hσ ha x.transmit_line_state) <|
    field_line (by decide +kernel) (Legible.line hσ ha x.command) <|
    field_line (by decide +kernel) (Legible.line hσ ha x.master_intercom_reference_id) <|
    field_line (by decide +kernel) (Legible.line hσ ha x.master_intercom_number) <|
    field_line (by decide +kernel) (Legible.line hσ ha x.master_channel_id) <|
    field_line (by decide +kernel) (Legible.line hσ ha x.intercom_parameters_length) <|
    field_line (by decide +kernel) (Legible.line hσ ha x.intercom_parameters) <|
    no_field_line
  same {σ} hσ x := by
    show [
    ("control_type", text σ (calm x.control_type)),
  ("communications_channel_type", text σ (calm x.communications_channel_type)),
  ("source_intercom_reference_id", text σ (calm x.source_intercom_reference_id)),
  ("source_intercom_number", text σ (calm x.source_intercom_number)),
  ("source_line_id", text σ (calm x.source_line_id)), ("transmit_priority", text σ (calm x.transmit_priority)),
  ("transmit_line_state", text σ (calm x.transmit_line_state)), ("command", text σ (calm x.command)),
  ("master_intercom_reference_id", text σ (calm x.master_intercom_reference_id)),
  ("master_intercom_number", text σ (calm x.master_intercom_number)),
  ("master_channel_id", text σ (calm x.master_channel_id)),
  ("intercom_parameters_length", text σ (calm x.intercom_parameters_length)),
  ("intercom_parameters", text σ (calm x.intercom_parameters))] = [
    ("control_type", text σ x.control_type), ("communications_channel_type", text σ x.communications_channel_type),
  ("source_intercom_reference_id", text σ x.source_intercom_reference_id),
  ("source_intercom_number", text σ x.source_intercom_number), ("source_line_id", text σ x.source_line_id),
  ("transmit_priority", text σ x.transmit_priority), ("transmit_line_state", text σ x.transmit_line_state),
  ("command", text σ x.command), ("master_intercom_reference_id", text σ x.master_intercom_reference_id),
  ("master_intercom_number", text σ x.master_intercom_number), ("master_channel_id", text σ x.master_channel_id),
  ("intercom_parameters_length", text σ x.intercom_parameters_length),
  ("intercom_parameters", text σ x.intercom_parameters)]
    simp only [Legible.same hσ]
  reads {σ} hσ {x y r r'} h := by
    have h : fieldsText σ [
    ("control_type", text σ x.control_type), ("communications_channel_type", text σ x.communications_channel_type),
  ("source_intercom_reference_id", text σ x.source_intercom_reference_id),
  ("source_intercom_number", text σ x.source_intercom_number), ("source_line_id", text σ x.source_line_id),
  ("transmit_priority", text σ x.transmit_priority), ("transmit_line_state", text σ x.transmit_line_state),
  ("command", text σ x.command), ("master_intercom_reference_id", text σ x.master_intercom_reference_id),
  ("master_intercom_number", text σ x.master_intercom_number), ("master_channel_id", text σ x.master_channel_id),
  ("intercom_parameters_length", text σ x.intercom_parameters_length),
  ("intercom_parameters", text σ x.intercom_parameters)] ++ r =
      fieldsText σ [
    ("control_type", text σ y.control_type), ("communications_channel_type", text σ y.communications_channel_type),
  ("source_intercom_reference_id", text σ y.source_intercom_reference_id),
  ("source_intercom_number", text σ y.source_intercom_number), ("source_line_id", text σ y.source_line_id),
  ("transmit_priority", text σ y.transmit_priority), ("transmit_line_state", text σ y.transmit_line_state),
  ("command", text σ y.command), ("master_intercom_reference_id", text σ y.master_intercom_reference_id),
  ("master_intercom_number", text σ y.master_intercom_number), ("master_channel_id", text σ y.master_channel_id),
  ("intercom_parameters_length", text σ y.intercom_parameters_length),
  ("intercom_parameters", text σ y.intercom_parameters)] ++ r' := h
    obtain ⟨h1, h⟩ := read_next hσ (x := x.control_type) (y := y.control_type) h
    obtain ⟨h2, h⟩ := read_next hσ (x := x.communications_channel_type) (y := y.communications_channel_type) h
    obtain ⟨h3, h⟩ := read_next hσ (x := x.source_intercom_reference_id) (y := y.source_intercom_reference_id) h
    obtain ⟨h4, h⟩ := read_next hσ (x := x.source_intercom_number) (y := y.source_intercom_number) h
    obtain ⟨h5, h⟩ := read_next hσ (x := x.source_line_id) (y := y.source_line_id) h
    obtain ⟨h6, h⟩ := read_next hσ (x := x.transmit_priority) (y := y.transmit_priority) h
    obtain ⟨h7, h⟩ := read_next hσ (x := x.transmit_line_state) (y := y.transmit_line_state) h
    obtain ⟨h8, h⟩ := read_next hσ (x := x.command) (y := y.command) h
    obtain ⟨h9, h⟩ := read_next hσ (x := x.master_intercom_reference_id) (y := y.master_intercom_reference_id) h
    obtain ⟨h10, h⟩ := read_next hσ (x := x.master_intercom_number) (y := y.master_intercom_number) h
    obtain ⟨h11, h⟩ := read_next hσ (x := x.master_channel_id) (y := y.master_channel_id) h
    obtain ⟨h12, h⟩ := read_next hσ (x := x.intercom_parameters_length) (y := y.intercom_parameters_length) h
    obtain ⟨h13, h⟩ := read_next hσ (x := x.intercom_parameters) (y := y.intercom_parameters) h
    refine ⟨?_, read_end h⟩
    show IntercomControlPdu.mk (calm x.control_type) (calm x.communications_channel_type) (calm
      x.source_intercom_reference_id) (calm x.source_intercom_number) (calm x.source_line_id) (calm
      x.transmit_priority) (calm x.transmit_line_state) (calm x.command) (calm x.master_intercom_reference_id) (calm
      x.master_intercom_number) (calm x.master_channel_id) (calm x.intercom_parameters_length) (calm
      x.intercom_parameters) = IntercomControlPdu.mk (calm y.control_type) (calm y.communications_channel_type) (calm
      y.source_intercom_reference_id) (calm y.source_intercom_number) (calm y.source_line_id) (calm
      y.transmit_priority) (calm y.transmit_line_state) (calm y.command) (calm y.master_intercom_reference_id) (calm
      y.master_intercom_number) (calm y.master_channel_id) (calm y.intercom_parameters_length) (calm
      y.intercom_parameters)
    rw [h1, h2, h3, h4, h5, h6, h7, h8, h9, h10, h11, h12, h13]
instance : LegibleBody CreateEntityPdu where
  named := by decide +kernel
  line hσ ha x :=
    field_line (by decide +kernel) (Legible.line hσ ha x.originating_entity_id) <|
    field_line (by decide +kernel) (Legible.line hσ ha x.receiving_entity_id) <|
    field_line (by decide +kernel) (Legible.line hσ ha x.request_id) <|
    no_field_line
  same _ _ := rfl
  reads {σ} hσ {x y r r'} h := by
    have h : fieldsText σ [
    ("originating_entity_id", text σ x.originating_entity_id), ("receiving_entity_id", text σ x.receiving_entity_id),
  ("request_id", text σ x.request_id)] ++ r =
      fieldsText σ [
    ("originating_entity_id", text σ y.originating_entity_id), ("receiving_entity_id", text σ y.receiving_entity_id),
  ("request_id", text σ y.request_id)] ++ r' := h
    obtain ⟨h1, h⟩ := read_next hσ (x := x.originating_entity_id) (y := y.originating_entity_id) h
    obtain ⟨h2, h⟩ := read_next hσ (x := x.receiving_entity_id) (y := y.receiving_entity_id) h
    obtain ⟨h3, h⟩ := read_next hσ (x := x.request_id) (y := y.request_id) h
    refine ⟨?_, read_end h⟩
    show CreateEntityPdu.mk (calm x.originating_entity_id) (calm x.receiving_entity_id) (calm x.request_id) =
      CreateEntityPdu.mk (calm y.originating_entity_id) (calm y.receiving_entity_id) (calm y.request_id)
    rw [h1, h2, h3]
instance : LegibleBody RemoveEntityPdu where
  named := by decide +kernel
  line hσ ha x :=
    field_line (by decide +kernel) (Legible.line hσ ha x.originating_entity_id) <|
    field_line (by decide +kernel) (Legible.line hσ ha x.receiving_entity_id) <|
    field_line (by decide +kernel) (Legible.line hσ ha x.request_id) <|
    no_field_line
  same _ _ := rfl
  reads {σ} hσ {x y r r'} h := by
    have h : fieldsText σ [
    ("originating_entity_id", text σ x.originating_entity_id), ("receiving_entity_id", text σ x.receiving_entity_id),
  ("request_id", text σ x.request_id)] ++ r =
      fieldsText σ [
    ("originating_entity_id", text σ y.originating_entity_id), ("receiving_entity_id", text σ y.receiving_entity_id),
  ("request_id", text σ y.request_id)] ++ r' := h
    obtain ⟨h1, h⟩ := read_next hσ (x := x.originating_entity_id) (y := y.originating_entity_id) h
    obtain ⟨h2, h⟩ := read_next hσ (x := x.receiving_entity_id) (y := y.receiving_entity_id) h
    obtain ⟨h3, h⟩ := read_next hσ (x := x.request_id) (y := y.request_id) h
    refine ⟨?_, read_end h⟩
    show RemoveEntityPdu.mk (calm x.originating_entity_id) (calm x.receiving_entity_id) (calm x.request_id) =
      RemoveEntityPdu.mk (calm y.originating_entity_id) (calm y.receiving_entity_id) (calm y.request_id)
    rw [h1, h2, h3]
instance : LegibleBody StartResumePdu where
  named := by decide +kernel
  line hσ ha x :=
    field_line (by decide +kernel) (Legible.line hσ ha x.originating_entity_id) <|
    field_line (by decide +kernel) (Legible.line hσ ha x.receiving_entity_id) <|
    field_line (by decide +kernel) (Legible.line hσ ha x.real_world_time) <|
    field_line (by decide +kernel) (Legible.line hσ ha x.simulation_time) <|
    field_line (by decide +kernel) (Legible.line hσ ha x.request_id) <|
    no_field_line
  same _ _ := rfl
  reads {σ} hσ {x y r r'} h := by
    have h : fieldsText σ [
    ("originating_entity_id", text σ x.originating_entity_id), ("receiving_entity_id", text σ x.receiving_entity_id),
  ("real_world_time", text σ x.real_world_time), ("simulation_time", text σ x.simulation_time),
  ("request_id", text σ x.request_id)] ++ r =
      fieldsText σ [
    ("originating_entity_id", text σ y.originating_entity_id), ("receiving_entity_id", text σ y.receiving_entity_id),
  ("real_world_time", text σ y.real_world_time), ("simulation_time", text σ y.simulation_time),
  ("request_id", text σ y.request_id)] ++ r' := h
    obtain ⟨h1, h⟩ := read_next hσ (x := x.originating_entity_id) (y := y.originating_entity_id) h
    obtain ⟨h2, h⟩ := read_next hσ (x := x.receiving_entity_id) (y := y.receiving_entity_id) h
    obtain ⟨h3, h⟩ := read_next hσ (x := x.real_world_time) (y := y.real_world_time) h
    obtain ⟨h4, h⟩ := read_next hσ (x := x.simulation_time) (y := y.simulation_time) h
    obtain ⟨h5, h⟩ := read_next hσ (x := x.request_id) (y := y.request_id) h
    refine ⟨?_, read_end h⟩
    show StartResumePdu.mk (calm x.originating_entity_id) (calm x.receiving_entity_id) (calm x.real_world_time) (calm
      x.simulation_time) (calm x.request_id) = StartResumePdu.mk (calm y.originating_entity_id) (calm
      y.receiving_entity_id) (calm y.real_world_time) (calm y.simulation_time) (calm y.request_id)
    rw [h1, h2, h3, h4, h5]
instance : LegibleBody StopFreezePdu where
  named := by decide +kernel
  line hσ ha x :=
    field_line (by decide +kernel) (Legible.line hσ ha x.originating_entity_id) <|
    field_line (by decide +kernel) (Legible.line hσ ha x.receiving_entity_id) <|
    field_line (by decide +kernel) (Legible.line hσ ha x.real_world_time) <|
    field_line (by decide +kernel) (Legible.line hσ ha x.reason) <|
    field_line (by decide +kernel) (Legible.line hσ ha x.frozen_behavior) <|
    field_line (by decide +kernel) (Legible.line hσ ha x.padding) <|
    field_line (by decide +kernel) (Legible.line hσ ha x.request_id) <|
    no_field_line
  same _ _ := rfl
  reads {σ} hσ {x y r r'} h := by
    have h : fieldsText σ [
    ("originating_entity_id", text σ x.originating_entity_id), ("receiving_entity_id", text σ x.receiving_entity_id),
  ("real_world_time", text σ x.real_world_time), ("reason", text σ x.reason),
  ("frozen_behavior", text σ x.frozen_behavior), ("padding", text σ x.padding), ("request_id", text σ x.request_id)] ++ r =
      fieldsText σ [
    ("originating_entity_id", text σ y.originating_entity_id), ("receiving_entity_id", text σ y.receiving_entity_id),
  ("real_world_time", text σ y.real_world_time), ("reason", text σ y.reason),
  ("frozen_behavior", text σ y.frozen_behavior), ("padding", text σ y.padding), ("request_id", text σ y.request_id)] ++ r' := h
    obtain ⟨h1, h⟩ := read_next hσ (x := x.originating_entity_id) (y := y.originating_entity_id) h
    obtain ⟨h2, h⟩ := read_next hσ (x := x.receiving_entity_id) (y := y.receiving_entity_id) h
    obtain ⟨h3, h⟩ := read_next hσ (x := x.real_world_time) (y := y.real_world_time) h
    obtain ⟨h4, h⟩ := read_next hσ (x := x.reason) (y := y.reason) h
    obtain ⟨h5, h⟩ := read_next hσ (x := x.frozen_behavior) (y := y.frozen_behavior) h
    obtain ⟨h6, h⟩ := read_next hσ (x := x.padding) (y := y.padding) h
    obtain ⟨h7, h⟩ := read_next hσ (x := x.request_id) (y := y.request_id) h
    refine ⟨?_, read_end h⟩
    show StopFreezePdu.mk (calm x.originating_entity_id) (calm x.receiving_entity_id) (calm x.real_world_time) (calm
      x.reason) (calm x.frozen_behavior) (calm x.padding) (calm x.request_id) = StopFreezePdu.mk (calm
      y.originating_entity_id) (calm y.receiving_entity_id) (calm y.real_world_time) (calm y.reason) (calm
      y.frozen_behavior) (calm y.padding) (calm y.request_id)
    rw [h1, h2, h3, h4, h5, h6, h7]
instance : LegibleBody AcknowledgePdu where
  named := by decide +kernel
  line hσ ha x :=
    field_line (by decide +kernel) (Legible.line hσ ha x.originating_entity_id) <|
    field_line (by decide +kernel) (Legible.line hσ ha x.receiving_entity_id) <|
    field_line (by decide +kernel) (Legible.line hσ ha x.acknowledge_flag) <|
    field_line (by decide +kernel) (Legible.line hσ ha x.response_flag) <|
    field_line (by decide +kernel) (Legible.line hσ ha x.request_id) <|
    no_field_line
  same _ _ := rfl
  reads {σ} hσ {x y r r'} h := by
    have h : fieldsText σ [
    ("originating_entity_id", text σ x.originating_entity_id), ("receiving_entity_id", text σ x.receiving_entity_id),
  ("acknowledge_flag", text σ x.acknowledge_flag), ("response_flag", text σ x.response_flag),
  ("request_id", text σ x.request_id)] ++ r =
      fieldsText σ [
    ("originating_entity_id", text σ y.originating_entity_id), ("receiving_entity_id", text σ y.receiving_entity_id),
  ("acknowledge_flag", text σ y.acknowledge_flag), ("response_flag", text σ y.response_flag),
  ("request_id", text σ y.request_id)] ++ r' := h
    obtain ⟨h1, h⟩ := read_next hσ (x := x.originating_entity_id) (y := y.originating_entity_id) h
    obtain ⟨h2, h⟩ := read_next hσ (x := x.receiving_entity_id) (y := y.receiving_entity_id) h
    obtain ⟨h3, h⟩ := read_next hσ (x := x.acknowledge_flag) (y := y.acknowledge_flag) h
    obtain ⟨h4, h⟩ := read_next hσ (x := x.response_flag) (y := y.response_flag) h
    obtain ⟨h5, h⟩ := read_next hσ (x := x.request_id) (y := y.request_id) h
    refine ⟨?_, read_end h⟩
    show AcknowledgePdu.mk (calm x.originating_entity_id) (calm x.receiving_entity_id) (calm x.acknowledge_flag) (calm
      x.response_flag) (calm x.request_id) = AcknowledgePdu.mk (calm y.originating_entity_id) (calm
      y.receiving_entity_id) (calm y.acknowledge_flag) (calm y.response_flag) (calm y.request_id)
    rw [h1, h2, h3, h4, h5]
instance : LegibleBody ActionRequestPdu where
  named := by decide +kernel
  line hσ ha x :=
    field_line (by decide +kernel) (Legible.line hσ ha x.originating_entity_id) <|
    field_line (by decide +kernel) (Legible.line hσ ha x.receiving_entity_id) <|
    field_line (by decide +kernel) (Legible.line hσ ha x.request_id) <|
    field_line (by decide +kernel) (Legible.line hσ ha x.action_id) <|
    field_line (by decide +kernel) (Legible.line hσ ha x.number_of_fixed_datum_records) <|
    field_line (by decide +kernel) (Legible.line hσ ha x.number_of_variable_datum_records) <|
    field_line (by decide +kernel) (Legible.line hσ ha x.fixed_datum_records) <|
    field_line (by decide +kernel) (Legible.line hσ ha x.variable_datum_records) <|
    no_field_line
  same {σ} hσ x := by
    show [
    ("originating_entity_id", text σ (calm x.originating_entity_id)),
  ("receiving_entity_id", text σ (calm x.receiving_entity_id)), ("request_id", text σ (calm x.request_id)),
  ("action_id", text σ (calm x.action_id)),
  ("number_of_fixed_datum_records", text σ (calm x.number_of_fixed_datum_records)),
  ("number_of_variable_datum_records", text σ (calm x.number_of_variable_datum_records)),
  ("fixed_datum_records", text σ (calm x.fixed_datum_records)),
  ("variable_datum_records", text σ (calm x.variable_datum_records))] = [
    ("originating_entity_id", text σ x.originating_entity_id), ("receiving_entity_id", text σ x.receiving_entity_id),
  ("request_id", text σ x.request_id), ("action_id", text σ x.action_id),
  ("number_of_fixed_datum_records", text σ x.number_of_fixed_datum_records),
  ("number_of_variable_datum_records", text σ x.number_of_variable_datum_records),
  ("fixed_datum_records", text σ x.fixed_datum_records),
  ("variable_datum_records", text σ x.variable_datum_records)]
    simp only [Legible.same hσ]
  reads {σ} hσ {x y r r'} h := by
    have h : fieldsText σ [
    ("originating_entity_id", text σ x.originating_entity_id), ("receiving_entity_id", text σ x.receiving_entity_id),
  ("request_id", text σ x.request_id), ("action_id", text σ x.action_id),
  ("number_of_fixed_datum_records", text σ x.number_of_fixed_datum_records),
  ("number_of_variable_datum_records", text σ x.number_of_variable_datum_records),
  ("fixed_datum_records", text σ x.fixed_datum_records),
  ("variable_datum_records", text σ x.variable_datum_records)] ++ r =
      fieldsText σ [
    ("originating_entity_id", text σ y.originating_entity_id), ("receiving_entity_id", text σ y.receiving_entity_id),
  ("request_id", text σ y.request_id), ("action_id", text σ y.action_id),
  ("number_of_fixed_datum_records", text σ y.number_of_fixed_datum_records),
  ("number_of_variable_datum_records", text σ y.number_of_variable_datum_records),
  ("fixed_datum_records", text σ y.fixed_datum_records),
  ("variable_datum_records", text σ y.variable_datum_records)] ++ r' := h
    obtain ⟨h1, h⟩ := read_next hσ (x := x.originating_entity_id) (y := y.originating_entity_id) h
    obtain ⟨h2, h⟩ := read_next hσ (x := x.receiving_entity_id) (y := y.receiving_entity_id) h
    obtain ⟨h3, h⟩ := read_next hσ (x := x.request_id) (y := y.request_id) h
    obtain ⟨h4, h⟩ := read_next hσ (x := x.action_id) (y := y.action_id) h
    obtain ⟨h5, h⟩ := read_next hσ (x := x.number_of_fixed_datum_records) (y := y.number_of_fixed_datum_records) h
    obtain ⟨h6, h⟩ := read_next hσ (x := x.number_of_variable_datum_records) (y := y.number_of_variable_datum_records) h
    obtain ⟨h7, h⟩ := read_next hσ (x := x.fixed_datum_records) (y := y.fixed_datum_records) h
    obtain ⟨h8, h⟩ := read_next hσ (x := x.variable_datum_records) (y := y.variable_datum_records) h
    refine ⟨?_, read_end h⟩
    show ActionRequestPdu.mk (calm x.originating_entity_id) (calm x.receiving_entity_id) (calm x.request_id) (calm
      x.action_id) (calm x.number_of_fixed_datum_records) (calm x.number_of_variable_datum_records) (calm
      x.fixed_datum_records) (calm x.variable_datum_records) = ActionRequestPdu.mk (calm y.originating_entity_id)
      (calm y.receiving_entity_id) (calm y.request_id) (calm y.action_id) (calm y.number_of_fixed_datum_records) (calm
      y.number_of_variable_datum_records) (calm y.fixed_datum_records) (calm y.variable_datum_records)
    rw [h1, h2, h3, h4, h5, h6, h7, h8]
instance : LegibleBody ActionResponsePdu where
  named := by decide +kernel
  line hσ ha x :=
    field_line (by decide +kernel) (Legible.line hσ ha x.originating_entity_id) <|
    field_line (by decide +kernel) (Legible.line hσ ha x.receiving_entity_id) <|
    field_line (by decide +kernel) (Legible.line hσ ha x.request_id) <|
    field_line (by decide +kernel) (Legible.line hσ ha x.request_status) <|
    field_line (by decide +kernel) (Legible.line hσ ha x.number_of_fixed_datum_records) <|
    field_line (by decide +kernel) (Legible.line hσ ha x.number_of_variable_datum_records) <|
    field_line (by decide +kernel) (Legible.line hσ ha x.fixed_datum_records) <|
    field_line (by decide +kernel) (Legible.line hσ ha x.variable_datum_records) <|
    no_field_line
  same {σ} hσ x := by
    show [
    ("originating_entity_id", text σ (calm x.originating_entity_id)),
  ("receiving_entity_id", text σ (calm x.receiving_entity_id)), ("request_id", text σ (calm x.request_id)),
  ("request_status", text σ (calm x.request_status)),
  ("number_of_fixed_datum_records", text σ (calm x.number_of_fixed_datum_records)),
  ("number_of_variable_datum_records", text σ (calm x.number_of_variable_datum_records)),
  ("fixed_datum_records", text σ (calm x.fixed_datum_records)),
  ("variable_datum_records", text σ (calm x.variable_datum_records))] = [
    ("originating_entity_id", text σ x.originating_entity_id), ("receiving_entity_id", text σ x.receiving_entity_id),
  ("request_id", text σ x.request_id), ("request_status", text σ x.request_status),
  ("number_of_fixed_datum_records", text σ x.number_of_fixed_datum_records),
  ("number_of_variable_datum_records", text σ x.number_of_variable_datum_records),
  ("fixed_datum_records", text σ x.fixed_datum_records),
  ("variable_datum_records", text σ x.variable_datum_records)]
    simp only [Legible.same hσ]
  reads {σ} hσ {x y r r'} h := by
    have h : fieldsText σ [
    ("originating_entity_id", text σ x.originating_entity_id), ("receiving_entity_id", text σ x.receiving_entity_id),
  ("request_id", text σ x.request_id), ("request_status", text σ x.request_status),
  ("number_of_fixed_datum_records", text σ x.number_of_fixed_datum_records),
  ("number_of_variable_datum_records", text σ x.number_of_variable_datum_records),
  ("fixed_datum_records", text σ x.fixed_datum_records),
  ("variable_datum_records", text σ x.variable_datum_records)] ++ r =
      fieldsText σ [
    ("originating_entity_id", text σ y.originating_entity_id), ("receiving_entity_id", text σ y.receiving_entity_id),
  ("request_id", text σ y.request_id), ("request_status", text σ y.request_status),
  ("number_of_fixed_datum_records", text σ y.number_of_fixed_datum_records),
  ("number_of_variable_datum_records", text σ y.number_of_variable_datum_records),
  ("fixed_datum_records", text σ y.fixed_datum_records),
  ("variable_datum_records", text σ y.variable_datum_records)] ++ r' := h
    obtain ⟨h1, h⟩ := read_next hσ (x := x.originating_entity_id) (y := y.originating_entity_id) h
    obtain ⟨h2, h⟩ := read_next hσ (x := x.receiving_entity_id) (y := y.receiving_entity_id) h
    obtain ⟨h3, h⟩ := read_next hσ (x := x.request_id) (y := y.request_id) h
    obtain ⟨h4, h⟩ := read_next hσ (x := x.request_status) (y := y.request_status) h
    obtain ⟨h5, h⟩ := read_next hσ (x := x.number_of_fixed_datum_records) (y := y.number_of_fixed_datum_records) h
    obtain ⟨h6, h⟩ := read_next hσ (x := x.number_of_variable_datum_records) (y := y.number_of_variable_datum_records) h
    obtain ⟨h7, h⟩ := read_next hσ (x := x.fixed_datum_records) (y := y.fixed_datum_records) h
    obtain ⟨h8, h⟩ := read_next hσ (x := x.variable_datum_records) (y := y.variable_datum_records) h
    refine ⟨?_, read_end h⟩
    show ActionResponsePdu.mk (calm x.originating_entity_id) (calm x.receiving_entity_id) (calm x.request_id) (calm
      x.request_status) (calm x.number_of_fixed_datum_records) (calm x.number_of_variable_datum_records) (calm
      x.fixed_datum_records) (calm x.variable_datum_records) = ActionResponsePdu.mk (calm y.originating_entity_id)
      (calm y.receiving_entity_id) (calm y.request_id) (calm y.request_status) (calm y.number_of_fixed_datum_records)
      (calm y.number_of_variable_datum_records) (calm y.fixed_datum_records) (calm y.variable_datum_records)
    rw [h1, h2, h3, h4, h5, h6, h7, h8]
instance : LegibleBody DataQueryPdu where
  named := by decide +kernel
  line hσ ha x :=
    field_line (by decide +kernel) (Legible.line hσ ha x.originating_entity_id) <|
    field_line (by decide +kernel) (Legible.line hσ ha x.receiving_entity_id) <|
    field_line (by decide +kernel) (Legible.line hσ ha x.request_id) <|
    field_line (by decide +kernel) (Legible.line hσ ha x.time_interval) <|
    field_line (by decide +kernel) (Legible.line hσ ha x.number_of_fixed_datum_records) <|
    field_line (by decide +kernel) (Legible.line hσ ha x.number_of_variable_datum_records) <|
    field_line (by decide +kernel) (Legible.line hσ ha x.fixed_datum_records) <|
    field_line (by decide +kernel) (Legible.line hσ ha x.variable_datum_records) <|
    no_field_line
  same {σ} hσ x := by
    show [
    ("originating_entity_id", text σ (calm x.originating_entity_id)),
  ("receiving_entity_id", text σ (calm x.receiving_entity_id)), ("request_id", text σ (calm x.request_id)),
  ("time_interval", text σ (calm x.time_interval)),
  ("number_of_fixed_datum_records", text σ (calm x.number_of_fixed_datum_records)),
  ("number_of_variable_datum_records", text σ (calm x.number_of_variable_datum_records)),
  ("fixed_datum_records", text σ (calm x.fixed_datum_records)),
  ("variable_datum_records", text σ (calm x.variable_datum_records))] = [
    ("originating_entity_id", text σ x.originating_entity_id), ("receiving_entity_id", text σ x.receiving_entity_id),
  ("request_id", text σ x.request_id), ("time_interval", text σ x.time_interval),
  ("number_of_fixed_datum_records", text σ x.number_of_fixed_datum_records),
  ("number_of_variable_datum_records", text σ x.number_of_variable_datum_records),
  ("fixed_datum_records", text σ x.fixed_datum_records),
  ("variable_datum_records", text σ x.variable_datum_records)]
    simp only [Legible.same hσ]
  reads {σ} hσ {x y r r'} h := by
    have h : fieldsText σ [
    ("originating_entity_id", text σ x.originating_entity_id), ("receiving_entity_id", text σ x.receiving_entity_id),
  ("request_id", text σ x.request_id), ("time_interval", text σ x.time_interval),
  ("number_of_fixed_datum_records", text σ x.number_of_fixed_datum_records),
  ("number_of_variable_datum_records", text σ x.number_of_variable_datum_records),
  ("fixed_datum_records", text σ x.fixed_datum_records),
  ("variable_datum_records", text σ x.variable_datum_records)] ++ r =
      fieldsText σ [
    ("originating_entity_id", text σ y.originating_entity_id), ("receiving_entity_id", text σ y.receiving_entity_id),
  ("request_id", text σ y.request_id), ("time_interval", text σ y.time_interval),
  ("number_of_fixed_datum_records", text σ y.number_of_fixed_datum_records),
  ("number_of_variable_datum_records", text σ y.number_of_variable_datum_records),
  ("fixed_datum_records", text σ y.fixed_datum_records),
  ("variable_datum_records", text σ y.variable_datum_records)] ++ r' := h
    obtain ⟨h1, h⟩ := read_next hσ (x := x.originating_entity_id) (y := y.originating_entity_id) h
    obtain ⟨h2, h⟩ := read_next hσ (x := x.receiving_entity_id) (y := y.receiving_entity_id) h
    obtain ⟨h3, h⟩ := read_next hσ (x := x.request_id) (y := y.request_id) h
    obtain ⟨h4, h⟩ := read_next hσ (x := x.time_interval) (y := y.time_interval) h
    obtain ⟨h5, h⟩ := read_next hσ (x := x.number_of_fixed_datum_records) (y := y.number_of_fixed_datum_records) h
    obtain ⟨h6, h⟩ := read_next hσ (x := x.number_of_variable_datum_records) (y := y.number_of_variable_datum_records) h
    obtain ⟨h7, h⟩ := read_next hσ (x := x.fixed_datum_records) (y := y.fixed_datum_records) h
    obtain ⟨h8, h⟩ := read_next hσ (x := x.variable_datum_records) (y := y.variable_datum_records) h
    refine ⟨?_, read_end h⟩
    show DataQueryPdu.mk (calm x.originating_entity_id) (calm x.receiving_entity_id) (calm x.request_id) (calm
      x.time_interval) (calm x.number_of_fixed_datum_records) (calm x.number_of_variable_datum_records) (calm
      x.fixed_datum_records) (calm x.variable_datum_records) = DataQueryPdu.mk (calm y.originating_entity_id) (calm
      y.receiving_entity_id) (calm y.request_id) (calm y.time_interval) (calm y.number_of_fixed_datum_records) (calm
      y.number_of_variable_datum_records) (calm y.fixed_datum_records) (calm y.variable_datum_records)
    rw [h1, h2, h3, h4, h5, h6, h7, h8]
instance : LegibleBody SetDataPdu where
  named := by decide +kernel
  line hσ ha x :=
    field_line (by decide +kernel) (Legible.line hσ ha x.originating_entity_id) <|
    field_line (by decide +kernel) (Legible.line hσ ha x.receiving_entity_id) <|
    field_line (by decide +kernel) (Legible.line hσ ha x.request_id) <|
    field_line (by decide +kernel) (Legible.line hσ ha x.padding) <|
    field_line (by decide +kernel) (Legible.line hσ ha x.number_of_fixed_datum_records) <|
    field_line (by decide +kernel) (Legible.line hσ ha x.number_of_variable_datum_records) <|
    field_line (by decide +kernel) (Legible.line hσ ha x.fixed_datum_records) <|
    field_line (by decide +kernel) (Legible.line hσ ha x.variable_datum_records) <|
    no_field_line
  same {σ} hσ x := by
    show [
    ("originating_entity_id", text σ (calm x.originating_entity_id)),
  ("receiving_entity_id", text σ (calm x.receiving_entity_id)), ("request_id", text σ (calm x.request_id)),
  ("padding", text σ (calm x.padding)),
  ("number_of_fixed_datum_records", text σ (calm x.number_of_fixed_datum_records)),
  ("number_of_variable_datum_records", text σ (calm x.number_of_variable_datum_records)),
  ("fixed_datum_records", text σ (calm x.fixed_datum_records)),
  ("variable_datum_records", text σ (calm x.variable_datum_records))] = [
    ("originating_entity_id", text σ x.originating_entity_id), ("receiving_entity_id", text σ x.receiving_entity_id),
  ("request_id", text σ x.request_id), ("padding", text σ x.padding),
  ("number_of_fixed_datum_records", text σ x.number_of_fixed_datum_records),
  ("number_of_variable_datum_records", text σ x.number_of_variable_datum_records),
  ("fixed_datum_records", text σ x.fixed_datum_records),
  ("variable_datum_records", text σ x.variable_datum_records)]
    simp only [Legible.same hσ]
  reads {σ} hσ {x y r r'} h := by
    have h : fieldsText σ [
    ("originating_entity_id", text σ x.originating_entity_id), ("receiving_entity_id", text σ x.receiving_entity_id),
  ("request_id", text σ x.request_id), ("padding", text σ x.padding),
  ("number_of_fixed_datum_records", text σ x.number_of_fixed_datum_records),
  ("number_of_variable_datum_records", text σ x.number_of_variable_datum_records),
  ("fixed_datum_records", text σ x.fixed_datum_records),
  ("variable_datum_records", text σ x.variable_datum_records)] ++ r =
      fieldsText σ [
    ("originating_entity_id", text σ y.originating_entity_id), ("receiving_entity_id", text σ y.receiving_entity_id),
  ("request_id", text σ y.request_id), ("padding", text σ y.padding),
  ("number_of_fixed_datum_records", text σ y.number_of_fixed_datum_records),
  ("number_of_variable_datum_records", text σ y.number_of_variable_datum_records),
  ("fixed_datum_records", text σ y.fixed_datum_records),
  ("variable_datum_records", text σ y.variable_datum_records)] ++ r' := h
    obtain ⟨h1, h⟩ := read_next hσ (x := x.originating_entity_id) (y := y.originating_entity_id) h
    obtain ⟨h2, h⟩ := read_next hσ (x := x.receiving_entity_id) (y := y.receiving_entity_id) h
    obtain ⟨h3, h⟩ := read_next hσ (x := x.request_id) (y := y.request_id) h
    obtain ⟨h4, h⟩ := read_next hσ (x := x.padding) (y := y.padding) h
    obtain ⟨h5, h⟩ := read_next hσ (x := x.number_of_fixed_datum_records) (y := y.number_of_fixed_datum_records) h
    obtain ⟨h6, h⟩ := read_next hσ (x := x.number_of_variable_datum_records) (y := y.number_of_variable_datum_records) h
    obtain ⟨h7, h⟩ := read_next hσ (x := x.fixed_datum_records) (y := y.fixed_datum_records) h
    obtain ⟨h8, h⟩ := read_next hσ (x := x.variable_datum_records) (y := y.variable_datum_records) h
    refine ⟨?_, read_end h⟩
    show SetDataPdu.mk (calm x.originating_entity_id) (calm x.receiving_entity_id) (calm x.request_id) (calm
      x.padding) (calm x.number_of_fixed_datum_records) (calm x.number_of_variable_datum_records) (calm
      x.fixed_datum_records) (calm x.variable_datum_records) = SetDataPdu.mk (calm y.originating_entity_id) (calm
      y.receiving_entity_id) (calm y.request_id) (calm y.padding) (calm y.number_of_fixed_datum_records) (calm
      y.number_of_variable_datum_records) (calm y.fixed_datum_records) (calm y.variable_datum_records)
    rw [h1, h2, h3, h4, h5, h6, h7, h8]
instance : LegibleBody DataPdu where
  named := by decide +kernel
  line hσ ha x :=
    field_line (by decide +kernel) (Legible.line hσ ha x.originating_entity_id) <|
    field_line (by decide +kernel) (Legible.line hσ ha x.receiving_entity_id) <|
    field_line (by decide +kernel) (Legible.line hσ ha x.request_id) <|
    field_line (by decide +kernel) (Legible.line hσ ha x.padding) <|
    field_line (by decide +kernel) (Legible.line hσ ha x.number_of_fixed_datum_records) <|
    field_line (by decide +kernel) (Legible.line hσ ha x.number_of_variable_datum_records) <|
    field_line (by decide +kernel) (Legible.line hσ ha x.fixed_datum_records) <|
    field_line (by decide +kernel) (Legible.line hσ ha x.variable_datum_records) <|
    no_field_line
  same {σ} hσ x := by
    show [
    ("originating_entity_id", text σ (calm x.originating_entity_id)),
  ("receiving_entity_id", text σ (calm x.receiving_entity_id)), ("request_id", text σ (calm x.request_id)),
  ("padding", text σ (calm x.padding)),
  ("number_of_fixed_datum_records", text σ (calm x.number_of_fixed_datum_records)),
  ("number_of_variable_datum_records", text σ (calm x.number_of_variable_datum_records)),
  ("fixed_datum_records", text σ (calm x.fixed_datum_records)),
  ("variable_datum_records", text σ (calm x.variable_datum_records))] = [
    ("originating_entity_id", text σ x.originating_entity_id), ("receiving_entity_id", text σ x.receiving_entity_id),
  ("request_id", text σ x.request_id), ("padding", text σ x.padding),
  ("number_of_fixed_datum_records", text σ x.number_of_fixed_datum_records),
  ("number_of_variable_datum_records", text σ x.number_of_variable_datum_records),
  ("fixed_datum_records", text σ x.fixed_datum_records),
  ("variable_datum_records", text σ x.variable_datum_records)]
    simp only [Legible.same hσ]
  reads {σ} hσ {x y r r'} h := by
    have h : fieldsText σ [
    ("originating_entity_id", text σ x.originating_entity_id), ("receiving_entity_id", text σ x.receiving_entity_id),
  ("request_id", text σ x.request_id), ("padding", text σ x.padding),
  ("number_of_fixed_datum_records", text σ x.number_of_fixed_datum_records),
  ("number_of_variable_datum_records", text σ x.number_of_variable_datum_records),
  ("fixed_datum_records", text σ x.fixed_datum_records),
  ("variable_datum_records", text σ x.variable_datum_records)] ++ r =
      fieldsText σ [
    ("originating_entity_id", text σ y.originating_entity_id), ("receiving_entity_id", text σ y.receiving_entity_id),
  ("request_id", text σ y.request_id), ("padding", text σ y.padding),
  ("number_of_fixed_datum_records", text σ y.number_of_fixed_datum_records),
  ("number_of_variable_datum_records", text σ y.number_of_variable_datum_records),
  ("fixed_datum_records", text σ y.fixed_datum_records),
  ("variable_datum_records", text σ y.variable_datum_records)] ++ r' := h
    obtain ⟨h1, h⟩ := read_next hσ (x := x.originating_entity_id) (y := y.originating_entity_id) h
    obtain ⟨h2, h⟩ := read_next hσ (x := x.receiving_entity_id) (y := y.receiving_entity_id) h
    obtain ⟨h3, h⟩ := read_next hσ (x := x.request_id) (y := y.request_id) h
    obtain ⟨h4, h⟩ := read_next hσ (x := x.padding) (y := y.padding) h
    obtain ⟨h5, h⟩ := read_next hσ (x := x.number_of_fixed_datum_records) (y := y.number_of_fixed_datum_records) h
    obtain ⟨h6, h⟩ := read_next hσ (x := x.number_of_variable_datum_records) (y := y.number_of_variable_datum_records) h
    obtain ⟨h7, h⟩ := read_next hσ (x := x.fixed_datum_records) (y := y.fixed_datum_records) h
    obtain ⟨h8, h⟩ := read_next hσ (x := x.variable_datum_records) (y := y.variable_datum_records) h
    refine ⟨?_, read_end h⟩
    show DataPdu.mk (calm x.originating_entity_id) (calm x.receiving_entity_id) (calm x.request_id) (calm x.padding)
      (calm x.number_of_fixed_datum_records) (calm x.number_of_variable_datum_records) (calm x.fixed_datum_records)
      (calm x.variable_datum_records) = DataPdu.mk (calm y.originating_entity_id) (calm y.receiving_entity_id) (calm
      y.request_id) (calm y.padding) (calm y.number_of_fixed_datum_records) (calm y.number_of_variable_datum_records)
      (calm y.fixed_datum_records) (calm y.variable_datum_records)
    rw [h1, h2, h3, h4, h5, h6, h7, h8]
instance : LegibleBody EventReportPdu where
  named := by decide +kernel
  line hσ ha x :=
    field_line (by decide +kernel) (Legible.line hσ ha x.originating_entity_id) <|
    field_line (by decide +kernel) (Legible.line hσ ha x.receiving_entity_id) <|
    field_line (by decide +kernel) (Legible.line hσ ha x.event_type) <|
    field_line (by decide +kernel) (Legible.line hσ ha x.padding) <|
    field_line (by decide +kernel) (Legible.line hσ ha x.number_of_fixed_datum_records) <|
    field_line (by decide +kernel) (Legible.line hσ ha x.number_of_variable_datum_records) <|
    field_line (by decide +kernel) (Legible.line hσ ha x.fixed_datum_records) <|
    field_line (by decide +kernel) (Legible.line hσ ha x.variable_datum_records) <|
    no_field_line
  same {σ} hσ x := by
    show [
    ("originating_entity_id", text σ (calm x.originating_entity_id)),
  ("receiving_entity_id", text σ (calm x.receiving_entity_id)), ("event_type", text σ (calm x.event_type)),
  ("padding", text σ (calm x.padding)),
  ("number_of_fixed_datum_records", text σ (calm x.number_of_fixed_datum_records)),
  ("number_of_variable_datum_records", text σ (calm x.number_of_variable_datum_records)),
  ("fixed_datum_records", text σ (calm x.fixed_datum_records)),
  ("variable_datum_records", text σ (calm x.variable_datum_records))] = [
    ("originating_entity_id", text σ x.originating_entity_id), ("receiving_entity_id", text σ x.receiving_entity_id),
  ("event_type", text σ x.event_type), ("padding", text σ x.padding),
  ("number_of_fixed_datum_records", text σ x.number_of_fixed_datum_records),
  ("number_of_variable_datum_records", text σ x.number_of_variable_datum_records),
  ("fixed_datum_records", text σ x.fixed_datum_records),
  ("variable_datum_records", text σ x.variable_datum_records)]
    simp only [Legible.same hσ]
  reads {σ} hσ {x y r r'} h := by
    have h : fieldsText σ [
    ("originating_entity_id", text σ x.originating_entity_id), ("receiving_entity_id", text σ x.receiving_entity_id),
  ("event_type", text σ x.event_type), ("padding", text σ x.padding),
  ("number_of_fixed_datum_records", text σ x.number_of_fixed_datum_records),
  ("number_of_variable_datum_records", text σ x.number_of_variable_datum_records),
  ("fixed_datum_records", text σ x.fixed_datum_records),
  ("variable_datum_records", text σ x.variable_datum_records)] ++ r =
      fieldsText σ [
    ("originating_entity_id", text σ y.originating_entity_id), ("receiving_entity_id", text σ y.receiving_entity_id),
  ("event_type", text σ y.event_type), ("padding", text σ y.padding),
  ("number_of_fixed_datum_records", text σ y.number_of_fixed_datum_records),
  ("number_of_variable_datum_records", text σ y.number_of_variable_datum_records),
  ("fixed_datum_records", text σ y.fixed_datum_records),
  ("variable_datum_records", text σ y.variable_datum_records)] ++ r' := h
    obtain ⟨h1, h⟩ := read_next hσ (x := x.originating_entity_id) (y := y.originating_entity_id) h
    obtain ⟨h2, h⟩ := read_next hσ (x := x.receiving_entity_id) (y := y.receiving_entity_id) h
    obtain ⟨h3, h⟩ := read_next hσ (x := x.event_type) (y := y.event_type) h
    obtain ⟨h4, h⟩ := read_next hσ (x := x.padding) (y := y.padding) h
    obtain ⟨h5, h⟩ := read_next hσ (x := x.number_of_fixed_datum_records) (y := y.number_of_fixed_datum_records) h
    obtain ⟨h6, h⟩ := read_next hσ (x := x.number_of_variable_datum_records) (y := y.number_of_variable_datum_records) h
    obtain ⟨h7, h⟩ := read_next hσ (x := x.fixed_datum_records) (y := y.fixed_datum_records) h
    obtain ⟨h8, h⟩ := read_next hσ (x := x.variable_datum_records) (y := y.variable_datum_records) h
    refine ⟨?_, read_end h⟩
    show EventReportPdu.mk (calm x.originating_entity_id) (calm x.receiving_entity_id) (calm x.event_type) (calm
      x.padding) (calm x.number_of_fixed_datum_records) (calm x.number_of_variable_datum_records) (calm
      x.fixed_datum_records) (calm x.variable_datum_records) = EventReportPdu.mk (calm y.originating_entity_id) (calm
      y.receiving_entity_id) (calm y.event_type) (calm y.padding) (calm y.number_of_fixed_datum_records) (calm
      y.number_of_variable_datum_records) (calm y.fixed_datum_records) (calm y.variable_datum_records)
    rw [h1, h2, h3, h4, h5, h6, h7, h8]
instance : LegibleBody CommentPdu where
  named := by decide +kernel
  line hσ ha x :=
    field_line (by decide +kernel) (Legible.line hσ ha x.originating_entity_id) <|
    field_line (by decide +kernel) (Legible.line hσ ha x.receiving_entity_id) <|
    field_line (by decide +kernel) (Legible.line hσ ha x.number_of_fixed_datum_records) <|
    field_line (by decide +kernel) (Legible.line hσ ha x.number_of_variable_datum_records) <|
    field_line (by decide +kernel) (Legible.line hσ ha x.fixed_datum_records) <|
    field_line (by decide +kernel) (Legible.line hσ ha x.variable_datum_records) <|
    no_field_line
  same {σ} hσ x := by
    show [
    ("originating_entity_id", text σ (calm x.originating_entity_id)),
  ("receiving_entity_id", text σ (calm x.receiving_entity_id)),
  ("number_of_fixed_datum_records", text σ (calm x.number_of_fixed_datum_records)),
  ("number_of_variable_datum_records", text σ (calm x.number_of_variable_datum_records)),
  ("fixed_datum_records", text σ (calm x.fixed_datum_records)),
  ("variable_datum_records", text σ (calm x.variable_datum_records))] = [
    ("originating_entity_id", text σ x.originating_entity_id), ("receiving_entity_id", text σ x.receiving_entity_id),
  ("number_of_fixed_datum_records", text σ x.number_of_fixed_datum_records),
  ("number_of_variable_datum_records", text σ x.number_of_variable_datum_records),
  ("fixed_datum_records", text σ x.fixed_datum_records),
  ("variable_datum_records", text σ x.variable_datum_records)]
    simp only [Legible.same hσ]
  reads {σ} hσ {x y r r'} h := by
    have h : fieldsText σ [
    ("originating_entity_id", text σ x.originating_entity_id), ("receiving_entity_id", text σ x.receiving_entity_id),
  ("number_of_fixed_datum_records", text σ x.number_of_fixed_datum_records),
  ("number_of_variable_datum_records", text σ x.number_of_variable_datum_records),
  ("fixed_datum_records", text σ x.fixed_datum_records),
  ("variable_datum_records", text σ x.variable_datum_records)] ++ r =
      fieldsText σ [
    ("originating_entity_id", text σ y.originating_entity_id), ("receiving_entity_id", text σ y.receiving_entity_id),
  ("number_of_fixed_datum_records", text σ y.number_of_fixed_datum_records),
  ("number_of_variable_datum_records", text σ y.number_of_variable_datum_records),
  ("fixed_datum_records", text σ y.fixed_datum_records),
  ("variable_datum_records", text σ y.variable_datum_records)] ++ r' := h
    obtain ⟨h1, h⟩ := read_next hσ (x := x.originating_entity_id) (y := y.originating_entity_id) h
    obtain ⟨h2, h⟩ := read_next hσ (x := x.receiving_entity_id) (y := y.receiving_entity_id) h
    obtain ⟨h3, h⟩ := read_next hσ (x := x.number_of_fixed_datum_records) (y := y.number_of_fixed_datum_records) h
    obtain ⟨h4, h⟩ := read_next hσ (x := x.number_of_variable_datum_records) (y := y.number_of_variable_datum_records) h
    obtain ⟨h5, h⟩ := read_next hσ (x := x.fixed_datum_records) (y := y.fixed_datum_records) h
    obtain ⟨h6, h⟩ := read_next hσ (x := x.variable_datum_records) (y := y.variable_datum_records) h
    refine ⟨?_, read_end h⟩
    show CommentPdu.mk (calm x.originating_entity_id) (calm x.receiving_entity_id) (calm
      x.number_of_fixed_datum_records) (calm x.number_of_variable_datum_records) (calm x.fixed_datum_records) (calm
      x.variable_datum_records) = CommentPdu.mk (calm y.originating_entity_id) (calm y.receiving_entity_id) (calm
      y.number_of_fixed_datum_records) (calm y.number_of_variable_datum_records) (calm y.fixed_datum_records) (calm
      y.variable_datum_records)
    rw [h1, h2, h3, h4, h5, h6]
instance : LegibleBody CreateEntityReliablePdu where
  named := by decide +kernel
  line hσ ha x :=
    field_line (by decide +kernel) (Legible.line hσ ha x.originating_entity_id) <|
    field_line (by decide +kernel) (Legible.line hσ ha x.receiving_entity_id) <|
    field_line (by decide +kernel) (Legible.line hσ ha x.required_reliability_service) <|
    field_line (by decide +kernel) (Legible.line hσ ha x.padding) <|
    field_line (by decide +kernel) (Legible.line hσ ha x.padding2) <|
    field_line (by decide +kernel) (Legible.line hσ ha x.request_id) <|
    no_field_line
  same _ _ := rfl
  reads {σ} hσ {x y r r'} h := by
    have h : fieldsText σ [
    ("originating_entity_id", text σ x.originating_entity_id), ("receiving_entity_id", text σ x.receiving_entity_id),
  ("required_reliability_service", text σ x.required_reliability_service), ("padding", text σ x.padding),
  ("padding2", text σ x.padding2), ("request_id", text σ x.request_id)] ++ r =
      fieldsText σ [
    ("originating_entity_id", text σ y.originating_entity_id), ("receiving_entity_id", text σ y.receiving_entity_id),
  ("required_reliability_service", text σ y.required_reliability_service), ("padding", text σ y.padding),
  ("padding2", text σ y.padding2), ("request_id", text σ y.request_id)] ++ r' := h
    obtain ⟨h1, h⟩ := read_next hσ (x := x.originating_entity_id) (y := y.originating_entity_id) h
    obtain ⟨h2, h⟩ := read_next hσ (x := x.receiving_entity_id) (y := y.receiving_entity_id) h
    obtain ⟨h3, h⟩ := read_next hσ (x := x.required_reliability_service) (y := y.required_reliability_service) h
    obtain ⟨h4, h⟩ := read_next hσ (x := x.padding) (y := y.padding) h
    obtain ⟨h5, h⟩ := read_next hσ (x := x.padding2) (y := y.padding2) h
    obtain ⟨h6, h⟩ := read_next hσ (x := x.request_id) (y := y.request_id) h
    refine ⟨?_, read_end h⟩
    show CreateEntityReliablePdu.mk (calm x.originating_entity_id) (calm x.receiving_entity_id) (calm
      x.required_reliability_service) (calm x.padding) (calm x.padding2) (calm x.request_id) =
      CreateEntityReliablePdu.mk (calm y.originating_entity_id) (calm y.receiving_entity_id) (calm
      y.required_reliability_service) (calm y.padding) (calm y.padding2) (calm y.request_id)
    rw [h1, h2, h3, h4, h5, h6]

end Dis
