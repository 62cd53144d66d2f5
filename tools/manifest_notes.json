{
 "C01": {
  "note": "All header values, all buffers, all trailing octets."
 },
 "C02": {
  "note": "All twelve octets stated one by one."
 },
 "C03": {
  "note": "Both cases of the length, agreement with the header decoder included."
 },
 "C04": {
  "note": "48 kinds exact; for the other 18 the discrepancy is proved exactly, kind by kind (Spec/Surplus). The plain claim for all kinds is false of the code; examples beside the theorems exhibit it."
 },
 "C05": {
  "note": "All kinds and all record types."
 },
 "C06": {
  "note": "Exact: refused iff the length exceeds 65535; effect of refusal on buffer and PDU stated completely."
 },
 "C07": {
  "note": "The desired limit (8192) is false of the code: C07_documented_maximum_violated. C07_no_8192_limit and C07_actual_maximum give the true bound and that it is attained."
 },
 "C08": {
  "note": "All kinds; the transmitter's length field separately."
 },
 "C09": {
  "note": "All byte strings split into: short, foreign type, own type."
 },
 "C10": {
  "note": "All pairs of kinds."
 },
 "C11": {
  "note": "All fixed-layout kinds; the two kinds with flag sets with the exact condition."
 },
 "C12": {
  "note": "Full round-trip is false of the code for every kind with lists (C12_lossy). What survives is proved for all 66 kinds: 56 unconditionally, the others with the exact condition (Conditional.lean), entity state separately."
 },
 "C13": {
  "note": "The desired property is false of the code (C13_count_misread); C13_aggregate_state is the exact behaviour."
 },
 "C14": {
  "note": "Fixed-size decoders: Properties/RoundTrip and Records. Variable ones: Spec/Needs says how many octets are needed as a function of the octets present."
 },
 "C15": {
  "note": "All kinds but EntityState, for which it is false (C15_entity_state_depends_on_rest)."
 },
 "C16": {
  "note": "All 402 enumerations with variants; the three without variants panic (C16_empty)."
 },
 "C17": {
  "note": "All variants of all enumerations, by a generic theorem whose side conditions are checked over the complete tables."
 },
 "C18": {
  "note": "The members of Spec/RecordTable; irregular records: C18_marking, C26, C27, C28, C30, C35."
 },
 "C19": {
  "note": "The members of the tables; discrepancies: C18_marking, C27_length, C30_length, C35_grid_data."
 },
 "C20": {
  "note": "All octets, all indicators, all histories; C20_indicator_u8 for the conversions to u8."
 },
 "C21": {
  "note": "All kinds, all clock readings, all octets."
 },
 "C22": {
  "note": "Sequences of any length and mix, and where a reader of a stream stops."
 },
 "C23": {
  "note": "Sequences of any length. Also the negative direction: an inexact message is never found."
 },
 "C24": {
  "note": "C24_stable: all kinds but EntityState, the two record-set kinds with overflow checks on; C24_*_unchecked: those two in unchecked builds; C24_entity_state: entity state PDUs, for inputs below 2^64 octets."
 },
 "C25": {
  "note": "All kinds, all headers."
 },
 "C26": {
  "note": "All counted records; both directions (C26_iff)."
 },
 "C27": {
  "note": "The desired property is false of the code; encoder, decoder, length and round-trip are characterised exactly."
 },
 "C28": {
  "note": "The desired property is false of the code; exact behaviour proved."
 },
 "C29": {
  "note": "All four cases: absent, 1-255 octets, empty, more than 255 (out of reach of users, C57)."
 },
 "C30": {
  "note": "All values, both build profiles, exact."
 },
 "C31": {
  "note": "f32 arithmetic by the exact rounding model in Model/Float32."
 },
 "C32": {
  "note": "The example programs as state machines over an arbitrary environment, once their sockets are set up; for the set-up see C70, for the text printed C69."
 },
 "C33": {
  "note": "As C32."
 },
 "C34": {
  "note": "All bit patterns; all histories of insert/remove/toggle calls with named flags. The set operations are those bitflags 2.5 generates, modelled as bit operations."
 },
 "C35": {
  "note": "All records and trailing octets; GridDataRecord never round-trips."
 },
 "C36": {
  "note": "Fixed-layout kinds and those with one list at the end; false beyond (C36_two_lists_not_injective) unless counts are true (C58)."
 },
 "C37": {
  "note": "All live-entity headers."
 },
 "C38": {
  "note": "Both build profiles; the limits are not enforced by serialize (proved). C38_reserved for the reserved identifiers."
 },
 "C39": {
  "note": "All kinds, all records."
 },
 "C40": {
  "note": "64 kinds never panic; the exact panic condition for the other two."
 },
 "C41": {
  "note": "f32 arithmetic by the exact rounding model in Model/Float32, itself proved to be the nearest-even rounding with the IEEE-754 special cases (C41_rounding_determined, C41_*_special); NaN payloads are not modelled."
 },
 "C42": {
  "note": "Codes in Spec/Codes, written from knowledge of SISO-REF-010 (text not in the sandbox)."
 },
 "C43": {
  "note": "All constructors and defaults of the record types and headers."
 },
 "C44": {
  "note": "All field types, including length-annotated ones."
 },
 "C45": {
  "note": "All nine error variants. C45_debug: as for C68, with the Debug text of other crates' errors a parameter of which nothing is assumed."
 },
 "C46": {
  "note": "All kinds; histories of header setter calls by induction."
 },
 "C47": {
  "note": "All 402 enumerations with variants (C47_all); tables in Spec/SisoCodes, Spec/SisoCodesMore (the 71 occurring in messages) and Spec/SisoCodesRest (the others, with the widths the crate's decoders read), drafted from the crate and reviewed from knowledge of the standard (text not in the sandbox); the two long ones (emitter names, variable record types) and SisoCodesRest read through less closely than the others. MinefieldSensorTypes has the crate's width of one octet (two in the standard); EntityCapabilities is an enumeration in the crate, a bit field in the standard."
 },
 "C48": {
  "note": "Tables in Spec/{Header,Record,Pdu}Layout* and Spec/PduElements, drafted from the declarations (not from the codecs) and read through by hand; C48_message accounts for every octet of every kind against Spec/Message, written by hand; counted parts on decoding against Spec/CountedParts."
 },
 "C49": {
  "note": "C49_header, C49_fields, C49_length for all kinds (C49_length: entity state excepted, see C49_entity_state); C49_always_forwards, C49_truncates, C49_transparent for the 60 kinds with a fixed-size decoder; C49_variable_part, C49_variable_transparent for the five kinds that read counted parts."
 },
 "C50": {
  "note": "dyn Any is modelled for PDUs only (Model/Guide). The book's receiver is transcribed with the PDU kind as a parameter; C50_receives for the kinds with a fixed-size decoder."
 },
 "C51": {
  "note": "Model/Equality: derived PartialEq, member by member; f32/f64 comparison as in IEEE 754. Types without == (PDUs, most records) are compared by their members in the model."
 },
 "C52": {
  "note": "C52_size for all kinds but entity state (C52_entity_state); C52_counted for the eight records with counted lists, C24_counted for their stability; C52_grid_axis, C52_grid_data, C52_datum for the rest."
 },
 "C53": {
  "note": "Counted by a separate specification (Spec/MessageSize), over the table of fixed sizes PduKind.ieeeOctets; C53_calculate_length, C53_length_field, C53_refused, C53_written for all 66 kinds."
 },
 "C54": {
  "note": "M logs its steps (Core/Basic); the state of a buffer after a panic is the replay of the log. `bytes` contract: a get_* that panics for want of octets takes none of them. C54_transfer_ownership and C54_set_record are exact; C40 says when the two panic and that no other kind does."
 },
 "C55": {
  "note": "Reads and reservations are counted in the log (Spec/Steps). Growth of a Vec by push is not counted as reservation (amortised, bounded by what was read: C52). Reservations of an encoder are not counted."
 },
 "C56": {
  "note": "Overflow checks are the only difference between profiles that the model knows; total_pdu_size is the one other function they concern (C38_total_overflow)."
 },
 "C57": {
  "note": "Model/Visibility lists the operations, generated from the visibility of each field. Programs that use unsafe code are out of scope, as is code inside the crate."
 },
 "C58": {
  "note": "Spec/Truthful says, kind by kind, which counts and lengths must be true. All 66 kinds; the receiver is shown to exist here, and constructed in C66."
 },
 "C59": {
  "note": "Model/Network: the programs of Model/Examples as a transition system; datagrams are not altered and bear the sender's address (assumed); live means a continuation exists, not that a fair network must take it."
 },
 "C60": {
  "note": "Positions are those of the tables in Spec (C48); hurt counts of counted parts are excluded by hypothesis, and an example shows why."
 },
 "C61": {
  "note": "Weak fairness for the client's send call, its datagram and the answer (NotPutOff); C61_echo_possible and C61_radio_possible exhibit executions that meet all hypotheses."
 },
 "C62": {
  "note": "The macro as a function of the field list (Model/DefinePdu); field types are arbitrary functions on the buffer. FieldType.Tidy, ReadBack and Unread are hypotheses on the user's types; FieldType.of_tidy gives the first for the crate's types with exact encoders. C62_crate_kinds relates the 66 hand-expanded models to it."
 },
 "C63": {
  "note": "Buf, Chain and Take of the bytes crate are modelled in Model/Buf (default bodies of get_*). A decoder on a source is a program over Buf (Prog) that agrees with the modelled decoder on slices; C63_decoders says there is one, C63_any_source that all such agree on every source."
 },
 "C64": {
  "note": "The receiver is a program of the user's (Spec/Dispatch), written from the book's description on the modelled get_pdu_type, PduHeader::deserialize and the 66 decoders. C64_sent_and_received covers the fifty-six unconditional kinds for all values; C64_recovers all kinds for decodable values; C64_one_each all kinds and values; C64_entity_state the entity state PDU."
 },
 "C65": {
  "note": "Fields are the slots of the layout tables (Spec/PduLayout1-4), i.e. everything before the first list; the entity state PDU up to its marking, the aggregate state PDU up to its lists."
 },
 "C66": {
  "note": "The receiver is the user's program Spec/ByHand, written with the modelled decoders of the crate's records; which counts must be true is Spec/Truthful (as for C58)."
 },
 "C67": {
  "note": "What the standard's receiver looks for (Spec/Standard: octets and widths) is written from knowledge of IEEE 1278.1-2012, which is not in /repo."
 },
 "C68": {
  "note": "The standard library's texts of f32, f64 and strings are a parameter; what is assumed of them is Fmt.Lawful (Spec/Printing), shown to be satisfiable (sampleFmt_lawful). The formats generated by derive(Debug), bitflags and modular_bitfield are modelled from their documentation."
 },
 "C69": {
  "note": "As for C68, with the texts of {} for f32 and socket addresses also a parameter (LogFmt.Lawful)."
 },
 "C70": {
  "note": "The operating system's answers are parameters. env::args, the parser of IPv4 addresses and exit codes are the standard library's, modelled from its source and documentation; the IPv6 parser is a parameter; arguments are taken to be Unicode."
 }
}
