/-
The flags of the three flag sets, with the bit each occupies, and what a history of calls leaves in a
set.  Written from SISO-REF-010 (UID 31, 68, 229) as the crate reads it: where SISO gives a
field more than one bit (damage, camouflage type ...) the crate names its lowest bit only.
-/
namespace Dis

/-- Frozen Behavior, UID 68. -/
def frozenBehaviorFlags : List (String × Nat) :=
  [("RunSimulationClock", 0), ("TransmitUpdates", 1), ("ProcessUpdates", 2)]

/-- Object State Appearance - General, UID 229. -/
def objectAppearanceFlags : List (String × Nat) :=
  [("PercentComplete", 0), ("Damage", 8), ("Predistributed", 10), ("State", 11), ("IsSmoking", 12),
   ("IsFlaming", 13), ("IEDPresent", 14)]

/-- Land Platform Appearance, UID 31. -/
def landAppearanceFlags : List (String × Nat) :=
  [("PaintScheme", 0), ("MobilityKilled", 1), ("FirePowerKilled", 2), ("Damage", 3),
   ("IsSmokeEmanating", 5), ("IsEngineEmittingSmoke", 6), ("TrailingDustCloud", 7), ("PrimaryHatch", 9),
   ("HeadLightsOn", 12), ("TailLightsOn", 13), ("BrakeLightsOn", 14), ("IsFlaming", 15),
   ("LauncherOperational", 16), ("CamouflageType", 17), ("ConcealedPosition", 19), ("IsFrozen", 21),
   ("PowerPlantOn", 22), ("State", 23), ("TentExtended", 24), ("RampExtended", 25),
   ("BlackoutLightsOn", 26), ("BlackoutBrakeLightsOn", 27), ("SpotSearchLight1On", 28),
   ("InteriorLightsOn", 29), ("OccupantsSurrendered", 30), ("MaskedCloaked", 31)]

/-- A call on a flag set, with the flag it names. -/
inductive FlagCall (α : Type) where
  | insert (f : α)
  | remove (f : α)
  | toggle (f : α)

/-- The flag a call names. -/
def FlagCall.flag {α : Type} : FlagCall α → α
  | .insert f => f
  | .remove f => f
  | .toggle f => f

/-- Whether the flag `name` is present after the calls, in order, if it was present (`was`) before. -/
def held {α : Type} (name : String) : List (FlagCall (String × α)) → Bool → Bool
  | [], was => was
  | .insert f :: rest, was => held name rest (if f.1 = name then true else was)
  | .remove f :: rest, was => held name rest (if f.1 = name then false else was)
  | .toggle f :: rest, was => held name rest (if f.1 = name then !was else was)

end Dis
