# Formal model of open-dis-rust 0.4.3 in Lean 4

## 1. What is modelled and how

The crate encodes and decodes IEEE 1278.1 (DIS) messages ("PDUs").  Its observable behaviour is a
set of functions on byte buffers: `serialize(&self, &mut BytesMut)` and
`deserialize(&mut impl Buf) -> T`.  The model transcribes them as computations in one monad

    M α = Profile → Bytes → Except Panic (α × Bytes)      (with a log of steps, see below)

* for a writer the state is the output so far, for a reader the input that remains;
* a Rust panic (`Buf::get_*` underflow, slice index, checked arithmetic, `expect`,
  `unimplemented!`, bitfield setter) is `Except.error`;
* next to the result every computation has a log of the steps it made (octets appended, octets taken, memory
  reserved), kept up to a panic; `M` contains a proof that replaying the log gives the final buffer, and `M.left` is
  the replay also when there is no result (used by C54 and C55 only);
* `Profile` says whether integer overflow is checked (debug) or wraps (release).

Layers (all under `lean/Verif/`):

| module | content | origin |
|---|---|---|
| `Core/Basic` | buffers, panics, the `bytes` contract (`put_*`, `get_*`, `remaining`), loops, arrays | by hand |
| `Model/Traits` | `FieldSerialize`, `FieldDeserialize`, `FieldLen`, `FieldDeserializeWithLen`, the blanket impls (src/pdu_macro.rs:13-213), `Default` | by hand |
| `Model/EnumCore`, `Model/Enums/*` | the 405 enumerations of src/common/enums.rs | tables by tools/gen_enums.py |
| `Model/Flags` | the three bit-flag types | by hand |
| `Model/Irregular` | records whose code is not a plain field list (markings, datums, record sets, grids, counted records, ...) | by hand |
| `Model/Records` | the regular records of src/common/data_types | tools/gen_records.py |
| `Model/Constructors` | every `new`, unit vectors, conversions | tools/gen_constructors.py |
| `Model/Header` | status record, PDU header, live-entity header, `get_pdu_type`, accessors | by hand |
| `Model/StatusMethods` | the other methods modular_bitfield generates for the status record | by hand |
| `Model/Errors` | `DISError`: nine variants, constructors, `Display`, `source` | by hand |
| `Model/PduCore` | `define_pdu!`, the `Pdu` trait (`calculate_length`, `finalize`, `serialize`, `deserialize`, `deserialize_without_header`, `new`) | by hand |
| `Model/Pdus1-4`, `Model/PduKind` | the 66 PDU kinds and the type that enumerates them | tools/gen_pdus.py |
| `Model/DefinePdu` | `define_pdu!` as a function of any field list, with field types of the user's own | by hand |
| `Model/CrateDefinitions` | the field lists of the crate's 66 `define_pdu!` blocks, for `Model/DefinePdu` | tools/gen_definitions.py |
| `Model/Buf` | the `Buf` trait of the `bytes` crate with the bodies of `get_*`, slices, `Chain`, `Take`; programs over `Buf` | by hand |
| `Model/Float32` | IEEE 754 binary32: `+ - * /`, `sqrt`, `as`-conversions, round to nearest even, on bit patterns | by hand |
| `Model/Timestamp`, `Model/Vector3`, `Model/Constants` | `calculate_dis_timestamp`, vector arithmetic, size helpers | by hand |
| `Model/Examples` | the four programs in examples/ as state machines driven by an environment | by hand |
| `Model/Network` | clients, server and an unreliable network together, as a transition system | by hand |
| `Model/Setup` | how the examples start (arguments, addresses, set-up of sockets) and their exit codes | by hand |
| `Model/Guide` | `as_any`/`downcast_ref`, and the receiver printed in book/src/guides/receiving-pdus.md | by hand |
| `Model/Equality` | derived `==`, `u8::from` of the status indicators, the remaining constants | by hand |
| `Model/Printing`, `Model/PrintedRecords`, `Model/PrintedPdus` | derived `Debug`: the text of `{:?}` and `{:#?}` | by hand, tools/gen_printing.py |
| `Model/LogText` | the text of what the four examples print | by hand |
| `Model/Visibility` | which fields a program outside the crate can assign, and by which operations it comes by values | tools/gen_visibility.py |
| `Spec/*` | the specification (section 3); mentions no serializer or decoder | by hand / tables |
| `Proofs/*` | lemmas | by hand / generated scripts checked by Lean |
| `Properties/*` | the property theorems `Cnn_*`, each with concrete instances beside it | by hand |
| `Audit` | `#print axioms` of every property theorem | generated |

Every definition of `Model` cites the file and lines of /repo it transcribes (tools/checkcites.py checks that
the cited range contains the item named).  The generators parse the Rust text with strict patterns and stop
on any statement they do not recognise, so nothing is skipped silently; what they emit is ordinary Lean, is
committed, and can be read against /repo without the generator.

### Not code, hence not cited

src/lib.rs, src/common/mod.rs, src/common/data_types/mod.rs are lists of modules.
src/common/serialized_length.rs, generic_header.rs, pdu_body.rs and pdu.rs declare traits; their
implementations are modelled where they are implemented (the only code in them, `Pdu::finalize`, is
`Pdu.finalize`).  `tests/` and the `#[cfg(test)]` modules are not modelled; the lengths they assert are the
IEEE sizes of C21.

## 2. Trusted base

* Lean 4.33.0's kernel.  Axioms: at most `propext`, `Classical.choice`, `Quot.sound`
  (`Verif/Audit.lean` prints them for every property theorem).  No axioms of ours; no compiled evaluation
  (`decide +kernel` is the kernel's own evaluator).  No Mathlib module is imported.
* The transcription: the definitions under `Core` and `Model` against /repo (comments cite lines).
* The contract of libraries that are not in /repo: `bytes` (`put_*` appends the big-endian octets,
  `get_*` takes them or panics when too few remain (then it takes none), `remaining` counts; the model's inputs are lists of octets, and C63 lifts
  this to every `Buf` that keeps its documented contract), `num_derive::FromPrimitive` (the variant with that discriminant), `bitflags` (set operations are bit operations, `from_bits` fails on
  unknown bits, `from_bits_retain` is public so values may hold unknown bits), `modular_bitfield`
  (fields from bit 0 upward; setter panics when out of range), `chrono` (minute 0-59, second 0-59,
  nanosecond below 2*10^9), `thiserror` (`Display` from the format strings, `source` from `#[source]`), std
  (`String` is its UTF-8 octets, `from_utf8_lossy`, `Vec`, `Option`, `Any`).  For C45, C68 and C69 also: the formats of
  `#[derive(Debug)]`, integers, lists and options and of the indentation of `{:#?}` (std), of flags (`bitflags` 2: names joined by ` | `, unnamed bits in hexadecimal)
  and of the status record (`modular_bitfield`: the members with getters); the texts of `f32`, `f64`, strings and socket
  addresses are parameters of which `Fmt.Lawful` and `LogFmt.Lawful` are assumed.
* `f32`/`f64` are bit patterns (`F32`, `F64`); codecs only move them (this assumes, as Rust documents, that
  moving a float keeps its bits).  Where the crate computes with `f32` (time stamps, vectors) the
  model computes with `Model/Float32`, an executable definition of IEEE 754 binary32 round-to-nearest-even;
  NaN results are a NaN of unspecified payload, represented by one NaN, as in Rust's specification a program
  may not rely on it.  `mul_add` is fused (rounded once), as Rust documents.
* The network of the examples: `recv_from` returns an arbitrary datagram from an arbitrary peer (cut to the
  buffer, as the OS does) or an error; `send_to` succeeds or fails; each a list given by the environment over
  which the theorems quantify.  Datagrams may be lost, duplicated, reordered, forged: that is a choice of
  list.  `C33_exchange` and `C32_client_and_server` connect two programs through it.  In `Model/Network` (C59) the
  network loses, delays, reorders and duplicates but does not alter or forge; `tokio::try_join!` is taken to end when
  both its futures have completed or one has failed, its polling order being any.
* The tables of `Spec/SisoCodes`, `Spec/SisoCodesMore` and `Spec/SisoCodesRest` (C47), `Spec/Codes` (C42) and `Spec/Fresh` sizes (C21) transcribe the standard
  from memory and from the crate's tests: the text of SISO-REF-010 and IEEE 1278.1 is not in the sandbox.
  They were drafted from the crate and reviewed against knowledge of the standard; `SisoCodesRest` (the 331
  enumerations that occur in no message) less closely than the others.

### A point about the macro

`define_pdu!` forwards `$ftype:ty` fragments to helper macros.  A forwarded `ty` fragment is opaque to
further matching, so the helper arms that look like `Option<$inner:ty>` never match and the general
arm is taken.  Hence an annotated field `#[len = modulation_parameter_length] modulation_parameters:
Option<ModulationParameters>` is prepared by `field_len(&option)` cast with
`u8::try_from(..).unwrap_or_default()` and decoded by `Option::<T>::deserialize_with_len`.  The model
follows that reading.  (Both readings agree on every value whose parameters number at most 255.)

The 66 expansions are modelled one by one (`Model/Pdus1-4`), and the macro once more as a function of the field list
(`Model/DefinePdu`).  `C62_crate_kinds` proves that the former are the latter applied to `Model/CrateDefinitions`, so the
scripts that write the expansions need not be trusted beyond the field lists.

### Not modelled

Time-of-day retrieval itself (`chrono::Utc::now`: the readings are parameters), allocation failure and sizes
beyond `usize` (sums of lengths are natural numbers), derived `Clone`, name resolution and the parsing of IPv6
addresses (of the standard library; C70).  Behaviour under concurrent access does not arise: every
function takes `&mut` or `&` and there is no global state, no `unsafe`, no interior mutability in the crate.

### Validation of the model

Not part of any proof, but evidence that the model is the code: `Validation/CrateTests` (written by
`tools/gen_tests.py` from the text of the tests) and `Validation/Tests` state the crate's own 210 tests about the
model, and the model passes them all.  The binary32 arithmetic of `Model/Float32` was run against the machine's
(Lean's compiled `Float32`, and `fmaf` of the C library) on 200000 random and near-special operand pairs for each of
addition, subtraction, multiplication, division, square root, negation, comparison and the conversions, and on 60000
triples for `mul_add`: no difference, NaN payloads aside.  The generated parts of the model are re-derived from the
source by `tools/gen_*.py`; `tools/checkcites.py` checks that cited lines exist.

## 3. Specification style

`Spec/Wire` defines `wire x`, the octets IEEE 1278.1 assigns to a value, by positional notation
and concatenation in declaration order, without reference to any serializer; `Spec/RecordWire`,
`Spec/IrregularWire`, `Spec/PduWire1-4` extend it to all records and PDU bodies.  `Enc` says which
values can be encoded (`encodable`), which value is actually transmitted (`sent`, different from `x`
where the crate writes zeros), and how far `field_len` is off (`surplus`); `Dec` says which part of
a value a decoder can recover (`kept`) and for which values it does (`decodable`).  The theorems tie
the model to these, e.g. "`serialize` appends exactly `wire (sent x)`".  Where a classification is itself
part of a claim (which kinds have exact lengths, which are of fixed layout, how many octets a decoder needs)
it is an explicit table in `Spec/KindTables`, `Spec/Surplus`, `Spec/Needs`, `Spec/Fresh`.

Theorems about "every PDU kind" quantify over the inductive type `PduKind` with 66 constructors, and
over all values of the corresponding body type; "every record" over the members of the table
`Spec/RecordTable` (and `Spec/Counted`); "every enumeration" over the members of the list `allEnums`.
Histories (status setters, header setters, message streams, datagrams) are lists, and the theorems are
by induction over them.

A property one would want but that is false of the code is stated in its true, exact form, together with a
proved counterexample to the plain form; properties.jsonl then says "Desired: ... False of the code: ...".
Disagreements found this way:

* C04/C23: declared length wrong for entity markings not of 11 octets, padded variable datums,
  over- or under-full record sets, grid data records; a stream receiver loses synchronisation.
* C07/C38: the documented maximum of 8192 octets is not enforced.
* C12: lists and optional fields are never decoded; C13: `AggregateStatePdu` misreads the count after its
  lists; `EntityStatePdu` misreads its capabilities and replaces the marking by a decimal number (C15: of what
  follows).
* C18/C26/C35: `EntityMarking`, `GridDataRecord`, `VariableTransmitterParameters` never round-trip.
* C27: variable datums come back with doubled length; C28: fields transmitted as zeros; C29: more than 255
  modulation parameters would silently be sent with length 0 (latent: by C57 no user of the crate can come by them); C30: products wrap in release builds.
* C31: the time stamp is not IEEE's (unit, shift, torn readings).
* C32: a 12-octet datagram of radio type kills the radio server; an oversize PDU is sent as an empty datagram.
* C16: the three enumerations without variants panic on every input.
* C36: PDUs with two lists can have equal encodings.
* C45: `InvalidFieldValue` texts are ambiguous.
* C49: a relay drops lists but forwards their counts; of an entity state message it garbles the marking and the
  capabilities (C24: after some relays every entity is marked "5").
* C50: the receiver in the book spins forever on an empty datagram and takes truncated datagrams for whole ones.

The layout tables of C48 describe the crate's format, whose fixed parts have the totals of IEEE 1278.1.  Places
where, to our knowledge, the format itself differs from the standard: data query PDUs carry whole datum records
where the standard has datum identifiers; missing-PDU numbers of the minefield NACK have 64 bits instead of 8;
linear segment parameters have 66 octets instead of 64; acoustic emitter systems stop after four octets; minefield
sensor types have one octet instead of two; entity capabilities are an enumeration instead of a bit field; the
entity marking has no fixed length.  What a receiver that follows the standard makes of these is C67.

## 4. How each property is proved

* C01, C02, C37 header codecs: compositional `Writes`/`Reads` lemmas; layout by `wire`, octet by octet.
* C03 `get_pdu_type`: case split on length; agreement with the header reader by `Fixed`.
* C04, C05, C06, C08, C40, C46 encoder laws: one generic model of `define_pdu!` over a class of bodies;
  law class per body (`Writes`, `Appends`, length), instances generated per kind, theorems over `PduKind`;
  the per-kind surplus is spelled out in `Spec/Surplus`.
* C07 the exact bound 65535 and a witness family above 8192.
* C09, C10, C25, C42, C45 decoder entry: generic macro model + injectivity of the kind → code table.
* C11, C12, C13, C22, C24, C29, C36 round trips: `Reads` laws composed field by field; the kinds whose
  decoders are conditional separately (`Properties/Conditional`, `Properties/Transmitter`, `Proofs/EntityState`).
* C14, C15, C39 decoder shape: `Fixed`, `Local`, `Consumes`, `OnlyUnderflow` compose through the monad; for
  the variable decoders `Spec/Needs` computes the octets needed.
* C16, C17, C34, C47 enumerations and flag sets: generic theorem over `EnumSpec`; side condition (codes fit,
  no duplicates) by kernel evaluation over the complete tables (exhaustive, not a sample). Histories of
  `insert`/`remove`/`toggle` calls (`Properties/Flags`): one bit at a time, induction over the calls.
* C18, C19, C26, C27, C28, C30, C35, C43, C44 records: law instances per record type, irregular ones by hand;
  the table theorems quantify over a list of all record types.
* C20 status record: general bit lemmas over all 256 octets; sequences by induction.
* C21 fresh PDUs: generic, sizes from the table; all octets from the default table.
* C23 framing: a splitter specified independently; induction over the message list.
* C31 time stamps: interval arithmetic on the exact rounding model. A running clock (Spec/Clock) by linear arithmetic.
* C32, C33 example programs: transcribed `main` steps; induction over the environment's turns.
* C41 vector arithmetic: correct rounding is stated against the exact rational result; error bounds by
  integer arithmetic on mantissas.
* C38 size helpers: arithmetic; the tie to `serialize` by C04.
* C48 offsets: `Written`/`ReadFrom` say that a slot of a table holds, or yields, a field; they compose
  (`Written.cons`, `FindsAt.cons`) like the codecs; the explicit tables with absolute offsets are proved equal
  to the composed ones by kernel evaluation; positions of list elements by induction over the list; whole
  messages against the field lists of `Spec/Message` (a gapless table determines the octets, `Written.spelt`).
* C49 relays: composition of C48's reading and writing laws; whole messages because the tables leave no gap
  (`eq_of_contiguous`) and decoded lists are empty (`Yields`); counted parts because their decoders invert
  `wire` (`Inverts`).
* C50: `Model/Guide`; from C09, C14, C15.
* C51: exact types by unfolding to members and injectivity of the encodings (C36's lemma); floating-point comparison
  against a separate definition of "same number", tied to the exact value by C41's monotonicity lemma.
* C52: a combinator for readers that relates the value read and the number of octets taken, applied to every decoder
  with counted parts (induction on the count); the kinds of fixed size by C14.
* C53: the octets of every list are counted in Spec/MessageSize by element numbers and sizes; proved against the length
  functions by induction on the (nested) lists, and against the octets written by way of C04.
* C54: a class of computations whose log consists of reads of 1, 2, 4 or 8 octets (decoders) or of appended octets that do
  not depend on the buffer (encoders), closed under the combinators and proved of every function by instance search
  from its text (`Proofs/StepsRecords`, `Proofs/StepsPdus`, generated); for the two kinds that can panic, what the list
  of record sets leaves, by induction on the list.
* C55: from the same classes; reservations by a second class, and for the three functions that reserve, exactly, from the
  offsets of their counts.
* C56: a class of computations that do the same in both builds (or else overflow), closed under the combinators and proved
  of every function by instance search (`Proofs/BuildsRecords`, `Proofs/BuildsPdus`, generated); record sets by
  induction on their number.
* C57: induction over the operations for "only if"; for "if", a message that carries the wanted padding is decoded and the
  public fields are assigned. What an assignment changes is stated
  against the list of private fields in `Spec/PrivateFields` (each with its octet in the layout table).
* C58: `Spec/Truthful` says when the counts of a message are true; field by field, equal beginnings give equal fields, each
  list by induction on its number of elements, which the counts make equal (`Proofs/Told`, `Proofs/ToldPdus`); kinds
  without counts from C36 and the length in the header.
* C59: `Model/Network` makes a transition system of the programs of `Model/Examples`; invariants by induction over its
  steps (`EchoWorld.own`, `EchoWorld.smooth`, `RadioWorld.own`), the client's join by induction over completions; that a
  client can still be served by exhibiting the steps.
* C60: fields at their places from C48, totality of the decoders from C14; that an octet belongs to exactly one field from
  the tables being contiguous (C48_complete).
* C61: infinite executions as functions of time; each stage by contradiction from weak fairness, the stages kept by the
  monotonicity of what has happened, the outcome by C59.
* C62: the macro by recursion on the field list, fields as nested pairs; the assignments to length fields as a fold, analysed
  by the last one at a position; reading by induction on the fields with the octets seen so far; the 66 kinds by
  computation (`rfl`) once sums and sequencing are reassociated.
* C63: a decoder is represented by a program over `get` and `remaining` (instance search over the decoder's text, as for
  C55); by induction on programs, running one on a source agrees with running it on the list of octets the source holds;
  the loop of `copy_to_slice` by induction on the octets wanted.
* C64: the receiver is written in Spec/Dispatch as the user's program; one step is characterised by octets 2, 8 and 9
  (`dispatch_eq`), all steps by cutting off framed messages (`dispatchAll_splits`, induction on the octets left), any arrival
  schedule by `dispatchAll_append` and induction on the pieces; sequences of PDUs by induction on `Sends` with C04, C12, C23.
* C65: composition of C48_encode and C48_decode at each slot; that every slot but the flag sets reads its own values back by
  going through the tables; `new` and the fixed layouts from C11 and C21.
* C66: the receiver is written in Spec/ByHand as the user's program; per record and list a `Reads` lemma (Proofs/ByHand) that
  what is read is what was written; `C66_sequence` by induction over the PDUs sent. Composed with C12 (what the crate's decoder
  leaves) and C53 (what the length field says). Every reader is local (what it makes of octets does not depend on what
  follows, Proofs/ByHandLocal), whence messages cut short and arrival in pieces.
* C67: places and widths of the standard's fields in Spec/Standard (from knowledge of the standard); what is found there follows
  from the exact octets of every message (C48_message) by regrouping them.
* C68: `{:?}` texts as octets (Model/Printing, PrintedRecords, PrintedPdus). Every text begins with an octet that cannot follow
  a text, and wherever it is followed by one that can, it can be cut off and the value read (class `Legible`, Proofs/Legible*):
  words by their octets, numbers by their digits, flags by induction over the table, lists by induction, structures field by field
  (scripts by tools/gen_printing.py); in the indented form after taking four spaces from the beginning of each line. The names of the variants of all enumerations are different: checked by insertion into a
  search tree in the kernel, in parts (Proofs/EnumNamesChecked). Errors: Properties/PrintedErrors, with the texts of other crates' errors
  a parameter of which nothing is assumed.
* C69: the lines cut at their first word, the address at the first space, the rest by C68; logs by induction over the lines.
* C70: Model/Setup: the set-up calls of the four `main` functions against arbitrary answers; addresses by the digits of their
  numbers (Proofs/Addresses), exit codes by induction over what arrives, output by C69.

Nothing on the list was found inexpressible; every property has status "proved".

## 5. Testing the theorems

`tools/mutate.py` copies the project outside /verif, edits one definition the way a bug would change
the program, rebuilds, and maps each failing declaration to the property theorems that depend on it.
Edits are written by hand (boundaries, swapped arguments, dropped updates, missed cases, endianness, wrong
widths, "fixes" of the crate's bugs) or drawn at random over the generated definitions
(`tools/mkmutants.py`: swapped fields, dropped fields, changed widths and codes).  `seeded/LOG.jsonl` has
one line per attempt.

## Appendix: axioms per theorem

As printed by `lake env lean Verif/Audit.lean` (generated by tools/mkmanifest.py --axioms).

**none** (8): C16_empty, C20_octet, C31_coarse, C38_reserved, C41_axes, C41_cross_self_not_zero, C41_magnitude_order, C41_normalize_unbounded

**propext** (4): C31_torn_reading, C34_positions, C38_limits, C51_exact_values

**propext, Quot.sound** (86): C02_header_layout, C04_inexact_kinds, C17_codes_distinct_and_fit, C20_generated_getters, C20_generated_setters, C20_get, C20_getters_determine, C20_history, C20_indicator_u8, C20_raw_setter, C20_set, C20_set_get, C20_specifiers, C20_specifiers_gaps, C21_default_header, C21_new_header, C25_header_stored, C27_length, C30_length, C30_serialize, C32_history, C32_io_error, C33_echo, C33_echo_receive_error, C33_echo_send_error, C38_total, C38_total_overflow, C41_commutative, C41_normalize_nan, C41_product_special, C41_quotient_special, C43_default_headers, C43_defaults, C43_empty, C43_lists, C43_record_specification, C43_vectors, C44_lists, C44_optionals, C44_records, C44_text, C44_without_length, C45_constructors, C45_field_text_ambiguous, C45_source_not_in_text, C45_state_and_version_texts, C46_finalize_then_serialize, C46_header_history, C46_live_header_history, C46_new_is_finalized, C46_stale_header_ignored, C47_all, C48_complete, C48_determines, C50_downcast, C50_spins_iff, C53_calculate_length, C54_assignments_returned, C54_decode, C54_decode_without_header, C54_encode, C54_encode_records, C54_header, C54_records, C55_no_reservation, C55_reads, C55_record_reads, C55_record_reservations, C56_decode, C56_header, C56_records, C56_serialize, C56_unless_overflow, C57_assignment, C57_assignment_aggregate, C59_final, C62_assigned, C62_crate_kinds, C62_new, C65_types, C66_own_decoder_transmitter_parameters, C69_echo, C70_server_address, C70_server_exit, C70_server_refused, C70_server_serves

**propext, Classical.choice, Quot.sound** (373): C01_header_roundtrip, C03_get_pdu_type, C03_get_pdu_type_short, C04_datum_kinds, C04_declared_length, C04_declared_length_all_kinds, C04_entity_state, C04_gridded_data, C04_record_set_kinds, C05_append_only, C05_records, C06_length_not_truncated, C06_refused_atomically, C06_refused_iff, C07_actual_maximum, C07_documented_maximum_violated, C07_no_8192_limit, C08_idempotent, C08_touches_only_bookkeeping, C08_transmitter, C09_foreign_type_refused, C09_ok_only_own_type, C09_own_type_accepted, C09_short_panics, C10_foreign_messages_refused, C10_one_decoder, C11_roundtrip, C11_roundtrip_stop_freeze, C11_roundtrip_stop_freeze_reliable, C12_areal_object_state, C12_entity_state, C12_entity_state_marking_lost, C12_information_operations_action, C12_information_operations_action_counted, C12_information_operations_report, C12_information_operations_report_counted, C12_lossy, C12_record_sets_iff, C12_set_record, C12_set_record_counted, C12_survives, C12_survives_all_kinds, C12_transfer_ownership, C12_transfer_ownership_counted, C12_variable_records_iff, C13_aggregate_state, C13_count_misread, C14_entity_state, C14_only_underflow, C14_panics_iff_short, C14_record_sets, C14_records, C14_transmitter, C14_variable_records, C15_entity_state_depends_on_rest, C15_ignores_what_follows, C16_decode, C17_roundtrip, C18_marking, C18_roundtrip, C19_fixed, C19_lists, C21_default_serializes, C21_new_octets, C21_new_received, C21_new_received_entity_state, C21_new_serializes, C22_independent, C22_sequence, C22_stops_at_foreign, C22_stops_at_refused, C23_desynchronised, C23_entity_state, C23_exact_kinds, C23_frame_iff, C23_framing, C23_inexact_never_found, C23_receiver, C24_counted, C24_entity_state, C24_records, C24_set_record_unchecked, C24_stable, C24_transfer_ownership_unchecked, C25_two_step, C26_counted, C26_iff, C26_lens, C26_transmitter_parameters, C27_datum, C27_deserialize, C27_never_round_trips, C28_dead_reckoning, C28_simulation_identifier, C29_empty_parameters, C29_oversized_parameters, C29_parameters, C30_deserialize, C30_roundtrip, C31_accuracy, C31_in_range, C31_lags_ieee_units, C31_monotone, C31_never_ahead, C31_not_ieee_field, C31_readings, C32_client_and_server, C32_client_send, C32_crash, C32_none_iff, C32_panics_iff, C32_radio_traffic, C32_sent_is_reported, C32_some_iff, C33_client_default, C33_client_no_panic, C33_client_recovers, C33_exchange, C34_appearance, C34_freeze, C34_from_bits, C34_history_appearance, C34_history_freeze, C34_history_land_appearance, C35_axis_iff, C35_grid_data, C35_grid_layouts, C35_irregular_axis, C35_mismatched_irregular, C35_mismatched_regular, C35_regular_axis, C36_across_kinds, C36_injective, C36_prefix_free, C36_records, C36_two_lists_not_injective, C37_live_header, C38_limit_not_enforced, C38_marking_limit, C38_total_is_declared, C39_records, C39_suffix, C40_serialize_no_panic, C40_set_record, C40_transfer_ownership, C41_cross_error, C41_cross_exact, C41_cross_operations, C41_cross_rounding, C41_difference, C41_difference_special, C41_dot_error, C41_dot_exact, C41_dot_operations, C41_dot_overflow, C41_dot_rounding, C41_magnitude, C41_magnitude_axis, C41_magnitude_monotone, C41_normalize_axis, C41_normalize_bounded, C41_normalize_none_iff, C41_normalize_overflow, C41_normalize_unit_length, C41_opposite, C41_opposite_magnitude, C41_order, C41_product, C41_products_nan, C41_products_not_nan, C41_quotient, C41_root_determined, C41_rounding_determined, C41_rounding_monotone, C41_scale_by_one, C41_self_difference, C41_sum, C41_sum_special, C41_zero_neutral, C42_codes, C43_defaults_decode, C43_empty_decode, C43_header, C43_live_header, C43_new, C43_record_set, C44_optional_with_length, C44_parameters, C44_primitives, C44_with_length, C45_debug, C45_deserialize_error, C45_refusal_text_identifies, C45_serialize_error, C45_text_determines_error, C46_agrees_with_serialize, C46_calculate_length, C46_finalize, C47_complete, C47_read, C47_written, C48_aggregate_state_count, C48_counted_parts_unique, C48_decode, C48_decode_unique, C48_decode_unique_variable, C48_decode_without_header, C48_elements, C48_encode, C48_entity_state, C48_entity_state_decode, C48_header, C48_live_header, C48_message, C48_record_heads, C48_record_lists, C48_record_sets_decode, C48_records, C48_transmitter_decode, C48_variable_records_decode, C49_always_forwards, C49_entity_state, C49_fields, C49_header, C49_length, C49_sample, C49_transparent, C49_truncates, C49_variable_part, C49_variable_transparent, C50_book, C50_book_any_kind, C50_book_refused, C50_prints_what_decodes, C50_receives, C51_equivalence, C51_grid_axis, C51_grid_axis_round_trip, C51_grid_data, C51_number, C51_same_octets, C51_vector, C51_vector_octets, C51_vector_round_trip, C52_counted, C52_datum, C52_entity_state, C52_grid_axis, C52_grid_data, C52_size, C53_length_field, C53_refused, C53_written, C54_again, C54_panic_leaves_a_header, C54_pdu_after_panic, C54_set_record, C54_transfer_ownership, C55_io_action, C55_io_report, C55_variable_datum, C56_record_sets, C57_antenna_pattern, C57_modulation_parameters, C57_parameters_never_dropped, C57_pdus, C57_records, C58_any_kind, C58_receiver_exists, C58_sequence, C58_truth_needed, C58_unambiguous, C59_client, C59_echo_live, C59_echo_safe, C59_failure, C59_interleaving, C59_no_panic, C59_radio_client, C59_radio_live, C59_radio_safe, C60_change, C60_change_octets, C60_contained, C60_header_damage, C60_header_kept, C60_information_operations, C60_one_octet, C60_record_sets, C60_set_record, C60_transfer_ownership, C60_transmitter, C60_type, C60_variable_records, C61_echo, C61_echo_possible, C61_radio, C61_radio_possible, C61_radio_reported, C62_accepts, C62_again, C62_declares, C62_decode, C62_message, C63_any_source, C63_decoders, C63_framed, C63_pieces, C63_record_decoders, C63_roundtrip_in_pieces, C63_sources, C63_take, C63_user_decoders, C64_any_octets, C64_any_pieces, C64_each_alone, C64_entity_state, C64_one_each, C64_recovers, C64_report, C64_sent_and_received, C64_stays_in_step, C64_stuck, C65_book, C65_edit_confined, C65_exactly, C65_field_arrives, C65_flags, C65_new_edited, C66_any_kind, C66_any_pieces, C66_as_they_arrive, C66_cut_short, C66_exactly, C66_ignores_what_follows, C66_sent_and_received, C66_sequence, C66_whole, C67_acoustic_system, C67_capabilities, C67_data_query, C67_data_query_misread, C67_data_query_single, C67_iff_layers, C67_linear_appearance_lost, C67_linear_second_segment, C67_linear_segment, C67_minefield_data, C67_minefield_nack, C67_minefield_nack_zeros, C67_minefield_query, C68_enums, C68_exact, C68_indented, C68_kinds, C68_one_line, C68_records, C68_records_one_line, C68_reserved_bits, C68_shows, C69_client, C69_line, C69_line_feeds, C69_log, C69_sent, C70_address, C70_client_calls, C70_exchange, C70_meet, C70_radio_client_exit, C70_radio_server_crash, C70_server_output, C70_udp_client_exit
