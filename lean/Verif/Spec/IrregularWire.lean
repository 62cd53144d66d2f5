import Verif.Model.Irregular
import Verif.Spec.Wire
/-
Wire images of the irregular records and of the flag sets, and what their codecs are expected to
transmit and recover.
-/
namespace Dis

instance : Wire FrozenBehavior := ⟨fun x => wire x.bits⟩
instance : Wire ObjectStateAppearanceGeneral := ⟨fun x => wire x.bits⟩
instance : Enc FrozenBehavior := .exact _
instance : Enc ObjectStateAppearanceGeneral := .exact _

/-- The bit numbers of the named flags of `FrozenBehavior`. -/
def FrozenBehavior.flagBits : List Nat := [0, 1, 2]
/-- The bit numbers of the named flags of `ObjectStateAppearanceGeneral`. -/
def ObjectStateAppearanceGeneral.flagBits : List Nat := [0, 8, 10, 11, 12, 13, 14]
/-- The bit numbers of the named flags of `LandPlatformAppearance`. -/
def LandPlatformAppearance.flagBits : List Nat :=
  [0, 1, 2, 3, 5, 6, 7, 9, 12, 13, 14, 15, 16, 17, 19, 21, 22, 23, 24, 25, 26, 27, 28, 29, 30, 31]
/-- Only named flags are set. -/
def OnlyFlags (named : List Nat) (bits : Nat) : Prop := ∀ i, bits.testBit i = true → i ∈ named

instance : Dec FrozenBehavior := ⟨fun x => OnlyFlags FrozenBehavior.flagBits x.bits.toNat, id⟩
instance : Dec ObjectStateAppearanceGeneral :=
  ⟨fun x => OnlyFlags ObjectStateAppearanceGeneral.flagBits x.bits.toNat, id⟩

/-- character set, then the text as it is (IEEE 1278.1 wants exactly 11 octets of text) -/
instance : Wire EntityMarking :=
  ⟨fun x => wire x.entity_marking_character_set ▹ wire x.entity_marking_string⟩
/-- the length always claimed is 12 -/
instance : Enc EntityMarking :=
  ⟨fun _ => True, id, fun x => 1 + (strBytes x.entity_marking_string).length - 12⟩

/-- Octets needed to fill `bits` bits up to a multiple of 64, after filling up the last octet. -/
def padOctets (bits : Nat) : Nat := (8 - (bits + 7) / 8 % 8) % 8

instance : Wire VariableDatumRecord :=
  ⟨fun x => wire x.datum_id ▹ wire x.length_bits ▹ wire x.value ▹
    List.replicate (padOctets x.length_bits.toNat) 0⟩
/-- the padding is not accounted for -/
instance : Enc VariableDatumRecord := ⟨fun _ => True, id, fun x => padOctets x.length_bits.toNat⟩
instance : Dec VariableDatumRecord := ⟨fun x => x.length_bits = 0 ∧ x.value = [], id⟩

instance : Wire RecordSpecificationElement :=
  ⟨fun x => wire x.record_id ▹ wire x.record_set_serial_number ▹ wire x.record_length ▹
    wire x.record_count ▹ wire x.record_values⟩
/-- octets the record set should have -/
def RecordSpecificationElement.octetCount (x : RecordSpecificationElement) : Nat :=
  x.record_length.toNat * x.record_count.toNat
/-- octets transmitted: length × count, computed modulo 2^16 -/
def RecordSpecificationElement.octetsSent (x : RecordSpecificationElement) : Nat :=
  x.octetCount % 65536
/-- safe in every build profile when length × count fits 16 bits and that many octets are stored;
those are transmitted; all stored ones are claimed -/
instance : Enc RecordSpecificationElement :=
  ⟨fun x => x.octetCount < 65536 ∧ x.octetCount ≤ x.record_values.length,
   fun x => { x with record_values := x.record_values.take x.octetsSent },
   fun x => min x.octetsSent x.record_values.length - x.record_values.length⟩
instance : Dec RecordSpecificationElement :=
  ⟨fun x => x.octetCount < 65536 ∧ x.octetCount = x.record_values.length, id⟩

instance : Wire GridAxisType where
  wire
    | .FixedSpacing n i => wire n ▹ wire i
    | .VariableSpacing n i s o xs p => wire n ▹ wire i ▹ wire s ▹ wire o ▹ wire xs ▹ wire p
instance : Wire GridAxisDescriptor :=
  ⟨fun x => wire x.domain_initial ▹ wire x.domain_final ▹ wire x.domain_points ▹
    wire x.interleaf_factor ▹ wire x.axis_type ▹ wire x.data⟩
instance : Enc GridAxisDescriptor := .exact _

instance : Wire DataRepresentationType where
  wire
    | .Type0 n d p => wire n ▹ wire d ▹ wire p
    | .Type1 s o n d p => wire s ▹ wire o ▹ wire n ▹ wire d ▹ wire p
    | .Type2 n p d => wire n ▹ wire p ▹ wire d
/-- sample type and data representation are 16-bit fields of the grid data record -/
instance : Wire GridDataRecord :=
  ⟨fun x => octets 2 x.sample_type.code ▹ octets 2 x.data_representation.code ▹ wire x.data⟩
/-- ... but only one octet is claimed for each -/
instance : Enc GridDataRecord := ⟨fun _ => True, id, fun _ => 2⟩

instance : Wire ModulationParameters := ⟨fun x => wire x.record_specific_fields⟩
instance : Enc ModulationParameters := .exact _
instance : Wire AntennaPattern := ⟨fun x => wire x.record_specific_fields⟩
instance : Enc AntennaPattern := .exact _

end Dis
