import Verif.Validation.Tests
/-
The crate's 198 unit tests of its PDU kinds, one by one, on the model: written by tools/gen_tests.py from the
tests' text.  They validate the model (the crate passes them, so must the model); they are not properties.
-/
namespace Dis
open CrateTest

/-- src/distributed_emissions.rs:153-158 -/
example : CastToAny .Designator := castToAny _

/-- src/distributed_emissions.rs:160-169 -/
example : SerializeThenDeserialize .Designator := serializeThenDeserialize _

/-- src/distributed_emissions.rs:171-176 -/
example : CheckDefaultPduLength .Designator (704 / BITS_PER_BYTE) := checkLength _ _ (by decide)

/-- src/distributed_emissions.rs:182-187 -/
example : CastToAny .ElectromagneticEmissions := castToAny _

/-- src/distributed_emissions.rs:189-199 -/
example : SerializeThenDeserialize .ElectromagneticEmissions := serializeThenDeserialize _

/-- src/distributed_emissions.rs:201-206 -/
example : CheckDefaultPduLength .ElectromagneticEmissions (224 / BITS_PER_BYTE) := checkLength _ _ (by decide)

/-- src/distributed_emissions.rs:212-217 -/
example : CastToAny .UnderwaterAcoustic := castToAny _

/-- src/distributed_emissions.rs:219-229 -/
example : SerializeThenDeserialize .UnderwaterAcoustic := serializeThenDeserialize _

/-- src/distributed_emissions.rs:231-236 -/
example : CheckDefaultPduLength .UnderwaterAcoustic (256 / BITS_PER_BYTE) := checkLength _ _ (by decide)

/-- src/distributed_emissions.rs:242-247 -/
example : CastToAny .IFF := castToAny _

/-- src/distributed_emissions.rs:249-258 -/
example : SerializeThenDeserialize .IFF := serializeThenDeserialize _

/-- src/distributed_emissions.rs:260-265 -/
example : CheckDefaultPduLength .IFF (704 / BITS_PER_BYTE) := checkLength _ _ (by decide)

/-- src/distributed_emissions.rs:271-276 -/
example : CastToAny .SupplementalEmission := castToAny _

/-- src/distributed_emissions.rs:278-288 -/
example : SerializeThenDeserialize .SupplementalEmission := serializeThenDeserialize _

/-- src/distributed_emissions.rs:290-295 -/
example : CheckDefaultPduLength .SupplementalEmission (224 / BITS_PER_BYTE) := checkLength _ _ (by decide)

/-- src/entity_information.rs:152-158 -/
example : CastToAny .EntityState := castToAny _

/-- src/entity_information.rs:160-169 -/
example : SerializeThenDeserialize .EntityState := serializeThenDeserialize _

/-- src/entity_information.rs:171-176 -/
example : CheckDefaultPduLength .EntityState (1152 / BITS_PER_BYTE) := checkLength _ _ (by decide)

/-- src/entity_information.rs:182-188 -/
example : CastToAny .Collision := castToAny _

/-- src/entity_information.rs:190-199 -/
example : SerializeThenDeserialize .Collision := serializeThenDeserialize _

/-- src/entity_information.rs:201-206 -/
example : CheckDefaultPduLength .Collision (480 / BITS_PER_BYTE) := checkLength _ _ (by decide)

/-- src/entity_information.rs:212-218 -/
example : CastToAny .CollisionElastic := castToAny _

/-- src/entity_information.rs:220-230 -/
example : SerializeThenDeserialize .CollisionElastic := serializeThenDeserialize _

/-- src/entity_information.rs:232-237 -/
example : CheckDefaultPduLength .CollisionElastic (800 / BITS_PER_BYTE) := checkLength _ _ (by decide)

/-- src/entity_information.rs:243-249 -/
example : CastToAny .EntityStateUpdate := castToAny _

/-- src/entity_information.rs:251-261 -/
example : SerializeThenDeserialize .EntityStateUpdate := serializeThenDeserialize _

/-- src/entity_information.rs:263-268 -/
example : CheckDefaultPduLength .EntityStateUpdate (576 / BITS_PER_BYTE) := checkLength _ _ (by decide)

/-- src/entity_information.rs:274-280 -/
example : CastToAny .Attribute := castToAny _

/-- src/entity_information.rs:282-291 -/
example : SerializeThenDeserialize .Attribute := serializeThenDeserialize _

/-- src/entity_information.rs:293-298 -/
example : CheckDefaultPduLength .Attribute (256 / BITS_PER_BYTE) := checkLength _ _ (by decide)

/-- src/entity_management.rs:128-134 -/
example : CastToAny .AggregateState := castToAny _

/-- src/entity_management.rs:136-145 -/
example : SerializeThenDeserialize .AggregateState := serializeThenDeserialize _

/-- src/entity_management.rs:147-152 -/
example : CheckDefaultPduLength .AggregateState (1088 / BITS_PER_BYTE) := checkLength _ _ (by decide)

/-- src/entity_management.rs:158-164 -/
example : CastToAny .TransferOwnership := castToAny _

/-- src/entity_management.rs:166-176 -/
example : SerializeThenDeserialize .TransferOwnership := serializeThenDeserialize _

/-- src/entity_management.rs:178-183 -/
example : CheckDefaultPduLength .TransferOwnership (320 / BITS_PER_BYTE) := checkLength _ _ (by decide)

/-- src/entity_management.rs:189-195 -/
example : CastToAny .IsGroupOf := castToAny _

/-- src/entity_management.rs:197-206 -/
example : SerializeThenDeserialize .IsGroupOf := serializeThenDeserialize _

/-- src/entity_management.rs:208-213 -/
example : CheckDefaultPduLength .IsGroupOf (320 / BITS_PER_BYTE) := checkLength _ _ (by decide)

/-- src/entity_management.rs:219-225 -/
example : CastToAny .IsPartOf := castToAny _

/-- src/entity_management.rs:227-236 -/
example : SerializeThenDeserialize .IsPartOf := serializeThenDeserialize _

/-- src/entity_management.rs:238-243 -/
example : CheckDefaultPduLength .IsPartOf (416 / BITS_PER_BYTE) := checkLength _ _ (by decide)

/-- src/information_operations.rs:78-84 -/
example : CastToAny .InformationOperationsAction := castToAny _

/-- src/information_operations.rs:86-96 -/
example : SerializeThenDeserialize .InformationOperationsAction := serializeThenDeserialize _

/-- src/information_operations.rs:98-103 -/
example : CheckDefaultPduLength .InformationOperationsAction (448 / BITS_PER_BYTE) := checkLength _ _ (by decide)

/-- src/information_operations.rs:113-119 -/
example : CastToAny .InformationOperationsReport := castToAny _

/-- src/information_operations.rs:121-131 -/
example : SerializeThenDeserialize .InformationOperationsReport := serializeThenDeserialize _

/-- src/information_operations.rs:133-138 -/
example : CheckDefaultPduLength .InformationOperationsReport (320 / BITS_PER_BYTE) := checkLength _ _ (by decide)

/-- src/logistics.rs:132-138 -/
example : CastToAny .ServiceRequest := castToAny _

/-- src/logistics.rs:140-149 -/
example : SerializeThenDeserialize .ServiceRequest := serializeThenDeserialize _

/-- src/logistics.rs:151-156 -/
example : CheckDefaultPduLength .ServiceRequest (224 / BITS_PER_BYTE) := checkLength _ _ (by decide)

/-- src/logistics.rs:162-168 -/
example : CastToAny .ResupplyOffer := castToAny _

/-- src/logistics.rs:170-179 -/
example : SerializeThenDeserialize .ResupplyOffer := serializeThenDeserialize _

/-- src/logistics.rs:181-186 -/
example : CheckDefaultPduLength .ResupplyOffer (224 / BITS_PER_BYTE) := checkLength _ _ (by decide)

/-- src/logistics.rs:192-198 -/
example : CastToAny .ResupplyReceived := castToAny _

/-- src/logistics.rs:200-210 -/
example : SerializeThenDeserialize .ResupplyReceived := serializeThenDeserialize _

/-- src/logistics.rs:212-217 -/
example : CheckDefaultPduLength .ResupplyReceived (224 / BITS_PER_BYTE) := checkLength _ _ (by decide)

/-- src/logistics.rs:223-229 -/
example : CastToAny .ResupplyCancel := castToAny _

/-- src/logistics.rs:231-240 -/
example : SerializeThenDeserialize .ResupplyCancel := serializeThenDeserialize _

/-- src/logistics.rs:242-247 -/
example : CheckDefaultPduLength .ResupplyCancel (192 / BITS_PER_BYTE) := checkLength _ _ (by decide)

/-- src/logistics.rs:253-259 -/
example : CastToAny .RepairComplete := castToAny _

/-- src/logistics.rs:261-270 -/
example : SerializeThenDeserialize .RepairComplete := serializeThenDeserialize _

/-- src/logistics.rs:272-277 -/
example : CheckDefaultPduLength .RepairComplete (224 / BITS_PER_BYTE) := checkLength _ _ (by decide)

/-- src/logistics.rs:283-289 -/
example : CastToAny .RepairResponse := castToAny _

/-- src/logistics.rs:291-300 -/
example : SerializeThenDeserialize .RepairResponse := serializeThenDeserialize _

/-- src/logistics.rs:302-307 -/
example : CheckDefaultPduLength .RepairResponse (224 / BITS_PER_BYTE) := checkLength _ _ (by decide)

/-- src/minefield.rs:134-140 -/
example : CastToAny .MinefieldState := castToAny _

/-- src/minefield.rs:142-151 -/
example : SerializeThenDeserialize .MinefieldState := serializeThenDeserialize _

/-- src/minefield.rs:153-158 -/
example : CheckDefaultPduLength .MinefieldState (576 / BITS_PER_BYTE) := checkLength _ _ (by decide)

/-- src/minefield.rs:164-170 -/
example : CastToAny .MinefieldQuery := castToAny _

/-- src/minefield.rs:172-181 -/
example : SerializeThenDeserialize .MinefieldQuery := serializeThenDeserialize _

/-- src/minefield.rs:183-188 -/
example : CheckDefaultPduLength .MinefieldQuery (320 / BITS_PER_BYTE) := checkLength _ _ (by decide)

/-- src/minefield.rs:194-200 -/
example : CastToAny .MinefieldData := castToAny _

/-- src/minefield.rs:202-211 -/
example : SerializeThenDeserialize .MinefieldData := serializeThenDeserialize _

/-- src/minefield.rs:213-218 -/
example : CheckDefaultPduLength .MinefieldData (352 / BITS_PER_BYTE) := checkLength _ _ (by decide)

/-- src/minefield.rs:224-230 -/
example : CastToAny .MinefieldResponseNack := castToAny _

/-- src/minefield.rs:232-242 -/
example : SerializeThenDeserialize .MinefieldResponseNack := serializeThenDeserialize _

/-- src/minefield.rs:244-249 -/
example : CheckDefaultPduLength .MinefieldResponseNack (208 / BITS_PER_BYTE) := checkLength _ _ (by decide)

/-- src/radio_communications.rs:160-166 -/
example : CastToAny .Transmitter := castToAny _

/-- src/radio_communications.rs:168-177 -/
example : SerializeThenDeserialize .Transmitter := serializeThenDeserialize _

/-- src/radio_communications.rs:179-184 -/
example : CheckDefaultPduLength .Transmitter (832 / BITS_PER_BYTE) := checkLength _ _ (by decide)

/-- src/radio_communications.rs:190-196 -/
example : CastToAny .Signal := castToAny _

/-- src/radio_communications.rs:198-207 -/
example : SerializeThenDeserialize .Signal := serializeThenDeserialize _

/-- src/radio_communications.rs:209-214 -/
example : CheckDefaultPduLength .Signal (256 / BITS_PER_BYTE) := checkLength _ _ (by decide)

/-- src/radio_communications.rs:220-226 -/
example : CastToAny .Receiver := castToAny _

/-- src/radio_communications.rs:228-237 -/
example : SerializeThenDeserialize .Receiver := serializeThenDeserialize _

/-- src/radio_communications.rs:239-244 -/
example : CheckDefaultPduLength .Receiver (288 / BITS_PER_BYTE) := checkLength _ _ (by decide)

/-- src/radio_communications.rs:250-256 -/
example : CastToAny .IntercomSignal := castToAny _

/-- src/radio_communications.rs:258-267 -/
example : SerializeThenDeserialize .IntercomSignal := serializeThenDeserialize _

/-- src/radio_communications.rs:269-274 -/
example : CheckDefaultPduLength .IntercomSignal (256 / BITS_PER_BYTE) := checkLength _ _ (by decide)

/-- src/radio_communications.rs:280-286 -/
example : CastToAny .IntercomControl := castToAny _

/-- src/radio_communications.rs:288-297 -/
example : SerializeThenDeserialize .IntercomControl := serializeThenDeserialize _

/-- src/radio_communications.rs:299-304 -/
example : CheckDefaultPduLength .IntercomControl (320 / BITS_PER_BYTE) := checkLength _ _ (by decide)

/-- src/simulation_management.rs:253-259 -/
example : CastToAny .CreateEntity := castToAny _

/-- src/simulation_management.rs:261-270 -/
example : SerializeThenDeserialize .CreateEntity := serializeThenDeserialize _

/-- src/simulation_management.rs:272-277 -/
example : CheckDefaultPduLength .CreateEntity (224 / BITS_PER_BYTE) := checkLength _ _ (by decide)

/-- src/simulation_management.rs:283-289 -/
example : CastToAny .RemoveEntity := castToAny _

/-- src/simulation_management.rs:291-300 -/
example : SerializeThenDeserialize .RemoveEntity := serializeThenDeserialize _

/-- src/simulation_management.rs:302-307 -/
example : CheckDefaultPduLength .RemoveEntity (224 / BITS_PER_BYTE) := checkLength _ _ (by decide)

/-- src/simulation_management.rs:313-319 -/
example : CastToAny .StopFreeze := castToAny _

/-- src/simulation_management.rs:321-330 -/
example : SerializeThenDeserialize .StopFreeze := serializeThenDeserialize _

/-- src/simulation_management.rs:332-337 -/
example : CheckDefaultPduLength .StopFreeze (320 / BITS_PER_BYTE) := checkLength _ _ (by decide)

/-- src/simulation_management.rs:343-349 -/
example : CastToAny .StartResume := castToAny _

/-- src/simulation_management.rs:351-360 -/
example : SerializeThenDeserialize .StartResume := serializeThenDeserialize _

/-- src/simulation_management.rs:362-367 -/
example : CheckDefaultPduLength .StartResume (352 / BITS_PER_BYTE) := checkLength _ _ (by decide)

/-- src/simulation_management.rs:373-379 -/
example : CastToAny .Acknowledge := castToAny _

/-- src/simulation_management.rs:381-390 -/
example : SerializeThenDeserialize .Acknowledge := serializeThenDeserialize _

/-- src/simulation_management.rs:392-397 -/
example : CheckDefaultPduLength .Acknowledge (256 / BITS_PER_BYTE) := checkLength _ _ (by decide)

/-- src/simulation_management.rs:403-409 -/
example : CastToAny .ActionRequest := castToAny _

/-- src/simulation_management.rs:411-420 -/
example : SerializeThenDeserialize .ActionRequest := serializeThenDeserialize _

/-- src/simulation_management.rs:422-427 -/
example : CheckDefaultPduLength .ActionRequest (320 / BITS_PER_BYTE) := checkLength _ _ (by decide)

/-- src/simulation_management.rs:432-438 -/
example : CastToAny .ActionResponse := castToAny _

/-- src/simulation_management.rs:440-449 -/
example : SerializeThenDeserialize .ActionResponse := serializeThenDeserialize _

/-- src/simulation_management.rs:451-456 -/
example : CheckDefaultPduLength .ActionResponse (320 / BITS_PER_BYTE) := checkLength _ _ (by decide)

/-- src/simulation_management.rs:462-468 -/
example : CastToAny .Data := castToAny _

/-- src/simulation_management.rs:470-479 -/
example : SerializeThenDeserialize .Data := serializeThenDeserialize _

/-- src/simulation_management.rs:481-486 -/
example : CheckDefaultPduLength .Data (320 / BITS_PER_BYTE) := checkLength _ _ (by decide)

/-- src/simulation_management.rs:492-498 -/
example : CastToAny .SetData := castToAny _

/-- src/simulation_management.rs:500-509 -/
example : SerializeThenDeserialize .SetData := serializeThenDeserialize _

/-- src/simulation_management.rs:511-516 -/
example : CheckDefaultPduLength .SetData (320 / BITS_PER_BYTE) := checkLength _ _ (by decide)

/-- src/simulation_management.rs:522-528 -/
example : CastToAny .DataQuery := castToAny _

/-- src/simulation_management.rs:530-539 -/
example : SerializeThenDeserialize .DataQuery := serializeThenDeserialize _

/-- src/simulation_management.rs:541-546 -/
example : CheckDefaultPduLength .DataQuery (320 / BITS_PER_BYTE) := checkLength _ _ (by decide)

/-- src/simulation_management.rs:552-558 -/
example : CastToAny .EventReport := castToAny _

/-- src/simulation_management.rs:560-569 -/
example : SerializeThenDeserialize .EventReport := serializeThenDeserialize _

/-- src/simulation_management.rs:571-576 -/
example : CheckDefaultPduLength .EventReport (320 / BITS_PER_BYTE) := checkLength _ _ (by decide)

/-- src/simulation_management.rs:581-587 -/
example : CastToAny .Comment := castToAny _

/-- src/simulation_management.rs:589-598 -/
example : SerializeThenDeserialize .Comment := serializeThenDeserialize _

/-- src/simulation_management.rs:600-605 -/
example : CheckDefaultPduLength .Comment (256 / BITS_PER_BYTE) := checkLength _ _ (by decide)

/-- src/simulation_management_with_reliability.rs:321-327 -/
example : CastToAny .CreateEntityReliable := castToAny _

/-- src/simulation_management_with_reliability.rs:329-339 -/
example : SerializeThenDeserialize .CreateEntityReliable := serializeThenDeserialize _

/-- src/simulation_management_with_reliability.rs:341-346 -/
example : CheckDefaultPduLength .CreateEntityReliable (256 / BITS_PER_BYTE) := checkLength _ _ (by decide)

/-- src/simulation_management_with_reliability.rs:352-358 -/
example : CastToAny .RemoveEntityReliable := castToAny _

/-- src/simulation_management_with_reliability.rs:360-370 -/
example : SerializeThenDeserialize .RemoveEntityReliable := serializeThenDeserialize _

/-- src/simulation_management_with_reliability.rs:372-377 -/
example : CheckDefaultPduLength .RemoveEntityReliable (256 / BITS_PER_BYTE) := checkLength _ _ (by decide)

/-- src/simulation_management_with_reliability.rs:383-389 -/
example : CastToAny .StartResumeReliable := castToAny _

/-- src/simulation_management_with_reliability.rs:391-401 -/
example : SerializeThenDeserialize .StartResumeReliable := serializeThenDeserialize _

/-- src/simulation_management_with_reliability.rs:403-408 -/
example : CheckDefaultPduLength .StartResumeReliable (384 / BITS_PER_BYTE) := checkLength _ _ (by decide)

/-- src/simulation_management_with_reliability.rs:414-420 -/
example : CastToAny .StopFreezeReliable := castToAny _

/-- src/simulation_management_with_reliability.rs:422-432 -/
example : SerializeThenDeserialize .StopFreezeReliable := serializeThenDeserialize _

/-- src/simulation_management_with_reliability.rs:434-439 -/
example : CheckDefaultPduLength .StopFreezeReliable (320 / BITS_PER_BYTE) := checkLength _ _ (by decide)

/-- src/simulation_management_with_reliability.rs:444-450 -/
example : CastToAny .AcknowledgeReliable := castToAny _

/-- src/simulation_management_with_reliability.rs:452-462 -/
example : SerializeThenDeserialize .AcknowledgeReliable := serializeThenDeserialize _

/-- src/simulation_management_with_reliability.rs:464-469 -/
example : CheckDefaultPduLength .AcknowledgeReliable (256 / BITS_PER_BYTE) := checkLength _ _ (by decide)

/-- src/simulation_management_with_reliability.rs:475-481 -/
example : CastToAny .ActionRequestReliable := castToAny _

/-- src/simulation_management_with_reliability.rs:483-493 -/
example : SerializeThenDeserialize .ActionRequestReliable := serializeThenDeserialize _

/-- src/simulation_management_with_reliability.rs:495-500 -/
example : CheckDefaultPduLength .ActionRequestReliable (384 / BITS_PER_BYTE) := checkLength _ _ (by decide)

/-- src/simulation_management_with_reliability.rs:506-512 -/
example : CastToAny .ActionResponseReliable := castToAny _

/-- src/simulation_management_with_reliability.rs:514-524 -/
example : SerializeThenDeserialize .ActionResponseReliable := serializeThenDeserialize _

/-- src/simulation_management_with_reliability.rs:526-531 -/
example : CheckDefaultPduLength .ActionResponseReliable (320 / BITS_PER_BYTE) := checkLength _ _ (by decide)

/-- src/simulation_management_with_reliability.rs:537-543 -/
example : CastToAny .DataQueryReliable := castToAny _

/-- src/simulation_management_with_reliability.rs:545-555 -/
example : SerializeThenDeserialize .DataQueryReliable := serializeThenDeserialize _

/-- src/simulation_management_with_reliability.rs:557-562 -/
example : CheckDefaultPduLength .DataQueryReliable (352 / BITS_PER_BYTE) := checkLength _ _ (by decide)

/-- src/simulation_management_with_reliability.rs:568-574 -/
example : CastToAny .SetDataReliable := castToAny _

/-- src/simulation_management_with_reliability.rs:576-585 -/
example : SerializeThenDeserialize .SetDataReliable := serializeThenDeserialize _

/-- src/simulation_management_with_reliability.rs:587-592 -/
example : CheckDefaultPduLength .SetDataReliable (320 / BITS_PER_BYTE) := checkLength _ _ (by decide)

/-- src/simulation_management_with_reliability.rs:598-604 -/
example : CastToAny .DataReliable := castToAny _

/-- src/simulation_management_with_reliability.rs:606-615 -/
example : SerializeThenDeserialize .DataReliable := serializeThenDeserialize _

/-- src/simulation_management_with_reliability.rs:617-622 -/
example : CheckDefaultPduLength .DataReliable (320 / BITS_PER_BYTE) := checkLength _ _ (by decide)

/-- src/simulation_management_with_reliability.rs:628-634 -/
example : CastToAny .EventReportReliable := castToAny _

/-- src/simulation_management_with_reliability.rs:636-646 -/
example : SerializeThenDeserialize .EventReportReliable := serializeThenDeserialize _

/-- src/simulation_management_with_reliability.rs:648-653 -/
example : CheckDefaultPduLength .EventReportReliable (320 / BITS_PER_BYTE) := checkLength _ _ (by decide)

/-- src/simulation_management_with_reliability.rs:659-665 -/
example : CastToAny .CommentReliable := castToAny _

/-- src/simulation_management_with_reliability.rs:667-676 -/
example : SerializeThenDeserialize .CommentReliable := serializeThenDeserialize _

/-- src/simulation_management_with_reliability.rs:678-683 -/
example : CheckDefaultPduLength .CommentReliable (256 / BITS_PER_BYTE) := checkLength _ _ (by decide)

/-- src/simulation_management_with_reliability.rs:689-695 -/
example : CastToAny .RecordQueryReliable := castToAny _

/-- src/simulation_management_with_reliability.rs:697-707 -/
example : SerializeThenDeserialize .RecordQueryReliable := serializeThenDeserialize _

/-- src/simulation_management_with_reliability.rs:709-714 -/
example : CheckDefaultPduLength .RecordQueryReliable (320 / BITS_PER_BYTE) := checkLength _ _ (by decide)

/-- src/simulation_management_with_reliability.rs:720-726 -/
example : CastToAny .SetRecordReliable := castToAny _

/-- src/simulation_management_with_reliability.rs:728-738 -/
example : SerializeThenDeserialize .SetRecordReliable := serializeThenDeserialize _

/-- src/simulation_management_with_reliability.rs:740-745 -/
example : CheckDefaultPduLength .SetRecordReliable (320 / BITS_PER_BYTE) := checkLength _ _ (by decide)

/-- src/synthetic_environment.rs:156-162 -/
example : CastToAny .EnvironmentalProcess := castToAny _

/-- src/synthetic_environment.rs:164-174 -/
example : SerializeThenDeserialize .EnvironmentalProcess := serializeThenDeserialize _

/-- src/synthetic_environment.rs:176-181 -/
example : CheckDefaultPduLength .EnvironmentalProcess (256 / BITS_PER_BYTE) := checkLength _ _ (by decide)

/-- src/synthetic_environment.rs:187-193 -/
example : CastToAny .GriddedData := castToAny _

/-- src/synthetic_environment.rs:195-204 -/
example : SerializeThenDeserialize .GriddedData := serializeThenDeserialize _

/-- src/synthetic_environment.rs:206-211 -/
example : CheckDefaultPduLength .GriddedData (512 / BITS_PER_BYTE) := checkLength _ _ (by decide)

/-- src/synthetic_environment.rs:217-223 -/
example : CastToAny .PointObjectState := castToAny _

/-- src/synthetic_environment.rs:225-235 -/
example : SerializeThenDeserialize .PointObjectState := serializeThenDeserialize _

/-- src/synthetic_environment.rs:237-242 -/
example : CheckDefaultPduLength .PointObjectState (704 / BITS_PER_BYTE) := checkLength _ _ (by decide)

/-- src/synthetic_environment.rs:248-254 -/
example : CastToAny .LinearObjectState := castToAny _

/-- src/synthetic_environment.rs:255-265 -/
example : SerializeThenDeserialize .LinearObjectState := serializeThenDeserialize _

/-- src/synthetic_environment.rs:267-272 -/
example : CheckDefaultPduLength .LinearObjectState (320 / 8) := checkLength _ _ (by decide)

/-- src/synthetic_environment.rs:278-284 -/
example : CastToAny .ArealObjectState := castToAny _

/-- src/synthetic_environment.rs:286-296 -/
example : SerializeThenDeserialize .ArealObjectState := serializeThenDeserialize _

/-- src/synthetic_environment.rs:298-303 -/
example : CheckDefaultPduLength .ArealObjectState (384 / BITS_PER_BYTE) := checkLength _ _ (by decide)

/-- src/warfare.rs:124-130 -/
example : CastToAny .Fire := castToAny _

/-- src/warfare.rs:132-141 -/
example : SerializeThenDeserialize .Fire := serializeThenDeserialize _

/-- src/warfare.rs:143-148 -/
example : CheckDefaultPduLength .Fire (768 / 8) := checkLength _ _ (by decide)

/-- src/warfare.rs:154-160 -/
example : CastToAny .Detonation := castToAny _

/-- src/warfare.rs:162-171 -/
example : SerializeThenDeserialize .Detonation := serializeThenDeserialize _

/-- src/warfare.rs:173-178 -/
example : CheckDefaultPduLength .Detonation (832 / BITS_PER_BYTE) := checkLength _ _ (by decide)

/-- src/warfare.rs:184-190 -/
example : CastToAny .DirectedEnergyFire := castToAny _

/-- src/warfare.rs:192-202 -/
example : SerializeThenDeserialize .DirectedEnergyFire := serializeThenDeserialize _

/-- src/warfare.rs:204-209 -/
example : CheckDefaultPduLength .DirectedEnergyFire (704 / BITS_PER_BYTE) := checkLength _ _ (by decide)

/-- src/warfare.rs:215-221 -/
example : CastToAny .EntityDamageStatus := castToAny _

/-- src/warfare.rs:223-233 -/
example : SerializeThenDeserialize .EntityDamageStatus := serializeThenDeserialize _

/-- src/warfare.rs:235-240 -/
example : CheckDefaultPduLength .EntityDamageStatus (192 / 8) := checkLength _ _ (by decide)

end Dis
