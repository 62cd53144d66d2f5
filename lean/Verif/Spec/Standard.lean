import Verif.Spec.Layout
/-
What a receiver that follows IEEE 1278.1-2012 looks for in the messages whose format differs from the
standard's.  The places and widths are given from knowledge of the standard (see DESIGN.md): they are not in
/repo.  Nothing here refers to the code.
-/
namespace Dis

/-- The number in the `width` octets of a message from octet `start` on, most significant octet first. -/
def numberAt (w : Bytes) (start width : Nat) : Nat := bigEndian ((w.drop start).take width)

/-- `count` numbers of `width` octets each, one after the other, from octet `start` on. -/
def numbersAt (w : Bytes) (start width count : Nat) : List Nat :=
  (List.range count).map fun i => numberAt w (start + width * i) width

/-- Numbers of one octet two by two, as numbers of two octets; a last one without a partner is left out. -/
def pairedUp : List Nat → List Nat
  | a :: b :: l => (256 * a + b) :: pairedUp l
  | _ => []

namespace Standard

/-- Data Query PDU: after 40 octets the datum identifiers asked for, 32 bits each, first the fixed ones. -/
def queriedIds (w : Bytes) (fixed : Nat) : List Nat := numbersAt w 40 4 fixed

/-- Minefield Response NACK PDU: after 26 octets the sequence numbers of the missing PDUs, 8 bits each. -/
def missingPdus (w : Bytes) (count : Nat) : List Nat := numbersAt w 26 1 count

/-- Minefield Query PDU: after 40 octets the perimeter points, of 8 octets each, then the sensor types, 16 bits
each. -/
def queriedSensors (w : Bytes) (points sensors : Nat) : List Nat := numbersAt w (40 + 8 * points) 2 sensors

/-- Minefield Data PDU: after 44 octets the sensor types, 16 bits each. -/
def sensors (w : Bytes) (count : Nat) : List Nat := numbersAt w 44 2 count

/-- Linear Object State PDU: after 40 octets the segments, of 64 octets each: number (8 bits), modification
(8 bits), general appearance (16 bits), specific appearance (32 bits), location, ... -/
def segmentNumber (w : Bytes) (i : Nat) : Nat := numberAt w (40 + 64 * i) 1
def segmentModification (w : Bytes) (i : Nat) : Nat := numberAt w (40 + 64 * i + 1) 1
def segmentGeneral (w : Bytes) (i : Nat) : Nat := numberAt w (40 + 64 * i + 2) 2
def segmentSpecific (w : Bytes) (i : Nat) : Nat := numberAt w (40 + 64 * i + 4) 4

/-- Underwater Acoustic PDU: after 32 octets, the shafts (8 octets each) and the additional passive activities
(4 octets each) the first emitter system: its length (8 bits), the number of its beams (8 bits), 16 bits of
padding, its name (16 bits), function and identifier (8 bits each), its location (12 octets), its beams. -/
def systemStart (shafts apas : Nat) : Nat := 32 + 8 * shafts + 4 * apas
def systemLength (w : Bytes) (shafts apas : Nat) : Nat := numberAt w (systemStart shafts apas) 1
def systemBeams (w : Bytes) (shafts apas : Nat) : Nat := numberAt w (systemStart shafts apas + 1) 1

/-- Entity State PDU: octets 140 to 143 are the capabilities, one bit for each, bit 0 the last of the word. -/
def capability (w : Bytes) (i : Nat) : Bool := (numberAt w 140 4).testBit i

/-- IFF PDU: the octets of a message that has layer 1 only; the third octet of the fundamental operational data
says which layers follow. -/
def iffLayer1Octets : Nat := 60

end Standard
end Dis
