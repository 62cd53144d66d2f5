import Verif.Spec.PduKindWire
/-
How many octets the decoders that read a variable number of octets need.
-/
namespace Dis

/-- The big-endian 16-bit number at offset `i`. -/
def u16At (b : Bytes) (i : Nat) : Nat := (b.getD i 0).toNat * 256 + (b.getD (i + 1) 0).toNat
/-- The big-endian 32-bit number at offset `i`. -/
def u32At (b : Bytes) (i : Nat) : Nat := u16At b i * 65536 + u16At b (i + 2)

/-- The octets taken by `n` standard variable records at the front of `b`: each is four octets of type,
two of length, and as many octets as that length says.  `none`: `b` ends too early. -/
def variableRecordOctets : Nat → Bytes → Option Nat
  | 0, _ => some 0
  | n + 1, b =>
    if b.length < 6 then none
    else if b.length < 6 + u16At b 4 then none
    else (variableRecordOctets n (b.drop (6 + u16At b 4))).map (6 + u16At b 4 + ·)

/-- What becomes of reading `n` record sets at the front of `b`: each is twelve octets (identifier, serial
number, record length at offset 8, record count at offset 10) and then length × count octets; under overflow
checks a product that does not fit 16 bits panics, and without them it is reduced modulo 2^16. -/
def recordSetOctets (checks : Bool) : Nat → Bytes → Except Panic Nat
  | 0, _ => .ok 0
  | n + 1, b =>
    if b.length < 12 then .error .bufferUnderflow
    else if checks = true ∧ 65536 ≤ u16At b 8 * u16At b 10 then .error .arithmeticOverflow
    else if b.length < 12 + u16At b 8 * u16At b 10 % 65536 then .error .bufferUnderflow
    else match recordSetOctets checks n (b.drop (12 + u16At b 8 * u16At b 10 % 65536)) with
      | .error e => .error e
      | .ok m => .ok (12 + u16At b 8 * u16At b 10 % 65536 + m)

end Dis
