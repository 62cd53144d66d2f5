{
 "auto1-49": {
  "result": "equivalent",
  "note": "The two swapped reads are both empty-Vec constructions that consume nothing; the edited program behaves identically, so no claim is broken."
 },
 "hand1-31": {
  "tightened": [
   "C46_finalize"
  ],
  "note": "Survived: nothing constrained what finalize stores when the length does not fit. C46_finalize was added, which states finalize's result in every case; the retest (hand2) is killed."
 },
 "hand1-101": {
  "tightened": [
   "C32_sent_is_reported",
   "C32_some_iff",
   "C32_radio_traffic",
   "C32_client_and_server",
   "C32_history",
   "C32_crash"
  ],
  "note": "Survived: the C32 theorems used the model's own logLine in their statements. They now use the independent specification function `report` (Properties/Examples.lean); retested later."
 },
 "hand2-16": {
  "tightened": [
   "C21_default_header",
   "C21_default_serializes"
  ],
  "note": "Survived: no theorem spoke of X::default() itself (serialize sets type and family anyway). Two theorems added; retest hand3."
 },
 "hand2-25": {
  "result": "equivalent",
  "note": "ProtocolVersion::default() is IEEE 1278.1-2012 as well, so the edited program builds the same header."
 },
 "hand2-31": {
  "result": "equivalent",
  "note": "The edited check differs only for a product of exactly 2^32, which no clock reading produces (C31_in_range)."
 },
 "hand2-65": {
  "tightened": [
   "C43_empty_decode",
   "C43_defaults_decode"
  ],
  "note": "Survived: the field is transmitted as zero whatever it holds. C43 now also says the constructed and default values are those that decoding their octets gives; retest hand3."
 },
 "rust1-0": {
  "note": "The enumeration occurs in no message and no property claims its code list; the properties about every enumeration (C16) stay true of the edited program."
 },
 "rust1-5": {
  "note": "The enumeration occurs in no message and no property claims its code list; the properties about every enumeration (C16) stay true of the edited program."
 },
 "rust1-6": {
  "note": "The enumeration occurs in no message and no property claims its code list; the properties about every enumeration (C16) stay true of the edited program."
 },
 "rust1-21": {
  "note": "The enumeration occurs in no message and no property claims its code list; the properties about every enumeration (C16) stay true of the edited program."
 },
 "rust1-22": {
  "note": "The enumeration occurs in no message and no property claims its code list; the properties about every enumeration (C16) stay true of the edited program."
 },
 "rust1-28": {
  "note": "The enumeration occurs in no message and no property claims its code list; the properties about every enumeration (C16) stay true of the edited program."
 },
 "rust1-33": {
  "note": "The enumeration occurs in no message and no property claims its code list; the properties about every enumeration (C16) stay true of the edited program."
 },
 "rust1-34": {
  "note": "The enumeration occurs in no message and no property claims its code list; the properties about every enumeration (C16) stay true of the edited program."
 },
 "rust1-39": {
  "note": "The enumeration occurs in no message and no property claims its code list; the properties about every enumeration (C16) stay true of the edited program."
 },
 "rust1-44": {
  "note": "The enumeration occurs in no message and no property claims its code list; the properties about every enumeration (C16) stay true of the edited program."
 },
 "rust1-50": {
  "note": "The enumeration occurs in no message and no property claims its code list; the properties about every enumeration (C16) stay true of the edited program."
 },
 "rust1-51": {
  "note": "The enumeration occurs in no message and no property claims its code list; the properties about every enumeration (C16) stay true of the edited program."
 },
 "rust1-53": {
  "note": "The enumeration occurs in no message and no property claims its code list; the properties about every enumeration (C16) stay true of the edited program."
 },
 "rust1-37": {
  "note": "The enumeration occurs in no message, so nothing in the crate writes it; the edited reader is a correct reader of two octets and C16 stays true of it."
 },
 "rust1-4": {
  "tightened": [
   "C47_read",
   "C47_complete"
  ],
  "note": "Survived: C47 covered 40 of the enumerations at the time. It now covers all 71 that occur in messages; retest hand3."
 },
 "hand3-26": {
  "note": "Equivalent edit: the enumeration has the codes 0, 1 and 2 only, so `not type 0, not type 2` is type 1. But it showed that the decoding of representations 1 and 2 was stated nowhere: C35_grid_layouts added.",
  "tightened": [
   "C35_grid_layouts"
  ]
 },
 "hand3-61": {
  "note": "Meaning of `f32 as u32` on negative numbers (standard library, not crate code); the crate only converts quotients of unsigned sums, so no claim about the crate changes."
 },
 "hand4-21": {
  "note": "f32::sqrt of a negative number (standard library); the crate takes the root of a sum of three squares only, which is never negative, so no claim about the crate changes."
 },
 "hand4-23": {
  "note": "The edited definition does not compile (not counted)."
 },
 "hand5-64": {
  "result": "equivalent",
  "note": "The check is only reached with products of clock readings (at most 59*60*10^6 < 2^32: C31_in_range), where it never fires; the function has no other caller."
 },
 "hand5-28": {
  "note": "The build stops in a lemma before the property; C44_text states field_len of a text literally and is false of the edited program."
 },
 "hand5-34": {
  "note": "The build stops in a lemma before the property; C44_primitives states the 8 octets of i64 literally and is false of the edited program."
 },
 "hand8-30": {
  "tightened": [
   "C20_specifiers",
   "C20_specifiers_gaps"
  ],
  "note": "Survived: the three indicators that are fields of the status record have a variant for every pattern, so the error is unreachable through the record. Theorems about the derived Specifier of all nine indicators were added, where it is reachable; retest hand9-23."
 },
 "hand9-14": {
  "result": "equivalent",
  "note": "Advancing the first source by all it has and the second by nothing is the same; no claim is broken."
 },
 "rust20260803-26": {
  "result": "not applicable",
  "note": "This record is transcribed by hand (Model/Irregular), so that regenerating the model does not carry the edit over. The same edit of the model is hand9-28."
 },
 "hand13-17": {
  "result": "survived",
  "tightened": [
   "C70_server_exit",
   "C70_radio_server_crash"
  ],
  "note": "C70_server_exit now says that the echo server's end is an I/O error, and C70_radio_server_crash (new) when exit code 101 occurs; with them the edit is refuted."
 },
 "hand14-48": {
  "result": "survived",
  "tightened": [
   "C57_assignment",
   "C57_assignment_aggregate"
  ],
  "note": "No theorem said which fields an assignment leaves; C57_assignment (new) does, against a table of the private fields. Retested as hand14b-48."
 },
 "hand14-49": {
  "result": "survived",
  "tightened": [
   "C57_assignment"
  ],
  "note": "As hand14-48. Retested as hand14b-49."
 },
 "hand14-57": {
  "result": "survived",
  "tightened": [
   "C70_client_calls"
  ],
  "note": "The theorem spoke of the address's family through the model's own function; it now names the two forms of address. Retested as hand14b-57."
 }
}
