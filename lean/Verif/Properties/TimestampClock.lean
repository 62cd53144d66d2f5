import Verif.Spec.Clock
import Verif.Properties.Timestamp
/-
C31: time stamps taken from a running clock, which is read three times.
-/
namespace Dis

theorem micros_of_clock (t1 t2 t3 : Nat) : microsPastHour (minuteAt t1) (secondAt t2) (nanosecondAt t3) =
    t1 / 60000000000 % 60 * 60000000 + t2 / 1000000000 % 60 * 1000000 + t3 % 1000000000 / 1000 := by
  unfold microsPastHour minuteAt secondAt nanosecondAt
  rw [UInt32.toNat_ofNat', UInt32.toNat_ofNat', UInt32.toNat_ofNat', Nat.mod_eq_of_lt (a := t1 / 60000000000 % 60) (by omega),
    Nat.mod_eq_of_lt (a := t2 / 1000000000 % 60) (by omega), Nat.mod_eq_of_lt (a := t3 % 1000000000) (by omega)]

theorem stamp_of_clock (t1 t2 t3 : Nat) (prof : Profile) :
    ∃ ts, calculate_dis_timestamp (minuteAt t1) (secondAt t2) (nanosecondAt t3) prof = .ok ts ∧
      168 * ts.toNat ≤ 100 * microsPastHour (minuteAt t1) (secondAt t2) (nanosecondAt t3) + 54500 ∧
      100 * microsPastHour (minuteAt t1) (secondAt t2) (nanosecondAt t3) ≤ 168 * ts.toNat + 54500 := by
  have hm : (minuteAt t1).toNat < 60 := by unfold minuteAt; rw [UInt32.toNat_ofNat']; omega
  have hs : (secondAt t2).toNat < 60 := by unfold secondAt; rw [UInt32.toNat_ofNat']; omega
  have hn : (nanosecondAt t3).toNat < 2000000000 := by unfold nanosecondAt; rw [UInt32.toNat_ofNat']; omega
  obtain ⟨ts, h, _⟩ := C31_in_range _ _ _ hm hs hn prof
  exact ⟨ts, h, C31_accuracy _ _ _ hm hs hn prof ts h⟩

/-- The clock is read at `t1`, `t2`, `t3`, all within a second.  The time stamp tells (to 545 microseconds, in its own unit) the
time `x` past the hour, and that is exactly right at `t3`, unless the second changes meanwhile: between the last two readings -
then it is a second less, or, if an hour begins, 59:59 more; or a minute begins between the first two - then it is a minute
less, or, if an hour begins, 59 minutes more. -/
theorem C31_readings (t1 t2 t3 : Nat) (h12 : t1 ≤ t2) (h23 : t2 ≤ t3) (h : t3 < t1 + 1000000000) (prof : Profile) :
    ∃ ts x, calculate_dis_timestamp (minuteAt t1) (secondAt t2) (nanosecondAt t3) prof = .ok ts ∧
      168 * ts.toNat ≤ 100 * x + 54500 ∧ 100 * x ≤ 168 * ts.toNat + 54500 ∧
      (t2 / 1000000000 ≠ t3 / 1000000000 →
        if t3 / 3600000000000 = t2 / 3600000000000 then x + 1000000 = pastHour t3 else x = pastHour t3 + 3599000000) ∧
      (t2 / 1000000000 = t3 / 1000000000 → t1 / 60000000000 ≠ t2 / 60000000000 →
        if t1 / 3600000000000 = t2 / 3600000000000 then x + 60000000 = pastHour t3 else x = pastHour t3 + 3540000000) ∧
      (t2 / 1000000000 = t3 / 1000000000 → t1 / 60000000000 = t2 / 60000000000 → x = pastHour t3) := by
  obtain ⟨ts, e, h1, h2⟩ := stamp_of_clock t1 t2 t3 prof
  refine ⟨ts, _, e, h1, h2, ?_, ?_, ?_⟩ <;> rw [micros_of_clock] <;> unfold pastHour
  · intro hne
    split <;> omega
  · intro he hne
    split <;> omega
  · intro he he'
    omega

/-- However long the three readings take, while no hour begins: the time told is never later than the last reading, nor a
minute or more before the first. -/
theorem C31_never_ahead (t1 t2 t3 : Nat) (h12 : t1 ≤ t2) (h23 : t2 ≤ t3) (h : t1 / 3600000000000 = t3 / 3600000000000)
    (prof : Profile) :
    ∃ ts x, calculate_dis_timestamp (minuteAt t1) (secondAt t2) (nanosecondAt t3) prof = .ok ts ∧
      168 * ts.toNat ≤ 100 * x + 54500 ∧ 100 * x ≤ 168 * ts.toNat + 54500 ∧
      x ≤ pastHour t3 ∧ pastHour t1 < x + 60000000 := by
  obtain ⟨ts, e, h1, h2⟩ := stamp_of_clock t1 t2 t3 prof
  refine ⟨ts, _, e, h1, h2, ?_, ?_⟩ <;> rw [micros_of_clock] <;> unfold pastHour <;> omega

/-- Read just before a full minute, and twice after it. -/
example := C31_readings 59999999900 60000000100 60000000200 (by decide) (by decide) (by decide) ⟨true⟩
/-- The first reading 20 seconds before the others. -/
example := C31_never_ahead 1800000000000 1820000000000 1820000000100 (by decide) (by decide) (by decide) ⟨true⟩

end Dis
