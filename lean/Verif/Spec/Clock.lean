/-
A clock (for C31): an instant is the number of nanoseconds since some full hour; what `minute()`, `second()` and `nanosecond()`
of `chrono` say at it (no leap second is in progress).
-/
namespace Dis

def minuteAt (t : Nat) : UInt32 := UInt32.ofNat (t / 60000000000 % 60)
def secondAt (t : Nat) : UInt32 := UInt32.ofNat (t / 1000000000 % 60)
def nanosecondAt (t : Nat) : UInt32 := UInt32.ofNat (t % 1000000000)

/-- Whole microseconds since the last full hour. -/
def pastHour (t : Nat) : Nat := t % 3600000000000 / 1000

end Dis
