import Verif.Spec.Wire
import Verif.Model.Irregular
import Verif.Model.Records
/-
Specification for C48: the counted parts that follow the fixed part of five kinds of messages, octet by octet.
-/
namespace Dis

/-- The octets of a record set: identifier, serial number, length of a record, number of records, the records. -/
def setOctets (e : RecordSpecificationElement) : Bytes :=
  octets 4 e.record_id.toNat ++ octets 4 e.record_set_serial_number.toNat ++ octets 2 e.record_length.toNat ++
    octets 2 e.record_count.toNat ++ e.record_values

/-- The octets of a standard variable record: type, number of octets that follow, those octets. -/
def variableRecordWritten (e : StandardVariableRecords) : Bytes :=
  octets 4 e.record_type.toNat ++ octets 2 e.record_length.toNat ++ e.record_specific_fields

/-- `found` begins with the number of sets and then has the sets, one after the other, each with as many octets of
values as length × count says (in 16 bits; in a build with overflow checks the product fits them); then `rest`. -/
def SetsFound (checked : Bool) (found : Bytes) (x : RecordSpecification) (rest : Bytes) : Prop :=
  found = octets 4 x.record_sets.length ++ x.record_sets.flatMap setOctets ++ rest ∧
  x.number_of_record_sets.toNat = x.record_sets.length ∧
  ∀ e ∈ x.record_sets, e.record_values.length = e.record_length.toNat * e.record_count.toNat % 65536 ∧
    (checked = true → e.record_length.toNat * e.record_count.toNat < 65536)

/-- `found` begins with the number of records and then has the records, one after the other, each with as many
octets as its length says; then `rest`. -/
def RecordsFound (found : Bytes) (x : StandardVariableSpecification) (rest : Bytes) : Prop :=
  found = octets 2 x.standard_variable_records.length ++ x.standard_variable_records.flatMap variableRecordWritten ++
    rest ∧
  x.number_of_standard_variable_records.toNat = x.standard_variable_records.length ∧
  ∀ e ∈ x.standard_variable_records, e.record_specific_fields.length = e.record_length.toNat

end Dis
