import Verif.Model.Traits
/-
The three `bitflags!` types of src/common/enums.rs.  A value is its raw bits: `bitflags` makes
`from_bits_retain` public, so bits without a named flag can be present.
-/
namespace Dis

/-- `bitflags::Flags::from_bits`: `Some` exactly when no bit outside `all` is set. -/
def flagsFromBits (all bits : Nat) : Option Nat :=
  if bits &&& all = bits then some bits else none

/-- src/common/enums.rs:3649-3656 -/
structure FrozenBehavior where
  bits : UInt8
  deriving DecidableEq, Repr
/-- src/common/enums.rs:3652 -/ def FrozenBehavior.RunSimulationClock : FrozenBehavior := ⟨(1 : UInt8) <<< 0⟩
/-- src/common/enums.rs:3653 -/ def FrozenBehavior.TransmitUpdates : FrozenBehavior := ⟨(1 : UInt8) <<< 1⟩
/-- src/common/enums.rs:3654 -/ def FrozenBehavior.ProcessUpdates : FrozenBehavior := ⟨(1 : UInt8) <<< 2⟩
/-- src/common/enums.rs:3652-3654: the flags with their names (`Flags::FLAGS`, generated by `bitflags!`) -/
def FrozenBehavior.flags : List (String × FrozenBehavior) := [
  ("RunSimulationClock", .RunSimulationClock),
  ("TransmitUpdates", .TransmitUpdates),
  ("ProcessUpdates", .ProcessUpdates)]
/-- src/common/enums.rs:3652-3654: the union of the flags (`all()`, generated by `bitflags!`) -/
def FrozenBehavior.all : Nat := (FrozenBehavior.flags.map fun f => f.2.bits.toNat).foldl (· ||| ·) 0
/-- src/common/enums.rs:3651: `empty()`, generated by `bitflags!` -/
def FrozenBehavior.empty : FrozenBehavior := ⟨0⟩
/-- src/common/enums.rs:3651: `contains`, generated by `bitflags!` -/
def FrozenBehavior.contains (self other : FrozenBehavior) : Bool := self.bits &&& other.bits == other.bits
/-- src/common/enums.rs:3651: `insert`, generated by `bitflags!` -/
def FrozenBehavior.insert (self other : FrozenBehavior) : FrozenBehavior := ⟨self.bits ||| other.bits⟩
/-- src/common/enums.rs:3651: `remove`, generated by `bitflags!` -/
def FrozenBehavior.remove (self other : FrozenBehavior) : FrozenBehavior := ⟨self.bits &&& ~~~other.bits⟩
/-- src/common/enums.rs:3651: `toggle`, generated by `bitflags!` -/
def FrozenBehavior.toggle (self other : FrozenBehavior) : FrozenBehavior := ⟨self.bits ^^^ other.bits⟩
/-- src/common/enums.rs:3658-3662 -/
instance : RDefault FrozenBehavior := ⟨FrozenBehavior.empty⟩
/-- src/common/enums.rs:3665-3668 -/
def FrozenBehavior.as_u8 (self : FrozenBehavior) : UInt8 := self.bits
/-- src/common/enums.rs:3670-3673 -/
def FrozenBehavior.from_u8 (bits : UInt8) : Option FrozenBehavior :=
  (flagsFromBits FrozenBehavior.all bits.toNat).map fun _ => ⟨bits⟩
/-- src/common/enums.rs:3676-3680 -/
instance : FieldSerialize FrozenBehavior := ⟨fun self => putU8 self.as_u8⟩
/-- src/common/enums.rs:3682-3687 -/
instance : FieldDeserialize FrozenBehavior := ⟨do
  let bits ← getU8
  return (FrozenBehavior.from_u8 bits).getD dflt⟩
/-- src/common/enums.rs:3689-3693 -/
instance : FieldLen FrozenBehavior := ⟨fun _ => 1⟩

/-- src/common/enums.rs:9414-9425 -/
structure ObjectStateAppearanceGeneral where
  bits : UInt16
  deriving DecidableEq, Repr
/-- src/common/enums.rs:9417 -/ def ObjectStateAppearanceGeneral.PercentComplete : ObjectStateAppearanceGeneral := ⟨(1 : UInt16) <<< 0⟩
/-- src/common/enums.rs:9418 -/ def ObjectStateAppearanceGeneral.Damage : ObjectStateAppearanceGeneral := ⟨(1 : UInt16) <<< 8⟩
/-- src/common/enums.rs:9419 -/ def ObjectStateAppearanceGeneral.Predistributed : ObjectStateAppearanceGeneral := ⟨(1 : UInt16) <<< 10⟩
/-- src/common/enums.rs:9420 -/ def ObjectStateAppearanceGeneral.State : ObjectStateAppearanceGeneral := ⟨(1 : UInt16) <<< 11⟩
/-- src/common/enums.rs:9421 -/ def ObjectStateAppearanceGeneral.IsSmoking : ObjectStateAppearanceGeneral := ⟨(1 : UInt16) <<< 12⟩
/-- src/common/enums.rs:9422 -/ def ObjectStateAppearanceGeneral.IsFlaming : ObjectStateAppearanceGeneral := ⟨(1 : UInt16) <<< 13⟩
/-- src/common/enums.rs:9423 -/ def ObjectStateAppearanceGeneral.IEDPresent : ObjectStateAppearanceGeneral := ⟨(1 : UInt16) <<< 14⟩
/-- src/common/enums.rs:9417-9423: the flags with their names (`Flags::FLAGS`, generated by `bitflags!`) -/
def ObjectStateAppearanceGeneral.flags : List (String × ObjectStateAppearanceGeneral) := [
  ("PercentComplete", .PercentComplete),
  ("Damage", .Damage),
  ("Predistributed", .Predistributed),
  ("State", .State),
  ("IsSmoking", .IsSmoking),
  ("IsFlaming", .IsFlaming),
  ("IEDPresent", .IEDPresent)]
/-- src/common/enums.rs:9417-9423: the union of the flags (`all()`, generated by `bitflags!`) -/
def ObjectStateAppearanceGeneral.all : Nat := (ObjectStateAppearanceGeneral.flags.map fun f => f.2.bits.toNat).foldl (· ||| ·) 0
/-- src/common/enums.rs:9416: `empty()`, generated by `bitflags!` -/
def ObjectStateAppearanceGeneral.empty : ObjectStateAppearanceGeneral := ⟨0⟩
/-- src/common/enums.rs:9416: `contains`, generated by `bitflags!` -/
def ObjectStateAppearanceGeneral.contains (self other : ObjectStateAppearanceGeneral) : Bool := self.bits &&& other.bits == other.bits
/-- src/common/enums.rs:9416: `insert`, generated by `bitflags!` -/
def ObjectStateAppearanceGeneral.insert (self other : ObjectStateAppearanceGeneral) : ObjectStateAppearanceGeneral := ⟨self.bits ||| other.bits⟩
/-- src/common/enums.rs:9416: `remove`, generated by `bitflags!` -/
def ObjectStateAppearanceGeneral.remove (self other : ObjectStateAppearanceGeneral) : ObjectStateAppearanceGeneral := ⟨self.bits &&& ~~~other.bits⟩
/-- src/common/enums.rs:9416: `toggle`, generated by `bitflags!` -/
def ObjectStateAppearanceGeneral.toggle (self other : ObjectStateAppearanceGeneral) : ObjectStateAppearanceGeneral := ⟨self.bits ^^^ other.bits⟩
/-- src/common/enums.rs:9427-9431 -/
instance : RDefault ObjectStateAppearanceGeneral := ⟨ObjectStateAppearanceGeneral.empty⟩
/-- src/common/enums.rs:9434-9437 -/
def ObjectStateAppearanceGeneral.as_u16 (self : ObjectStateAppearanceGeneral) : UInt16 := self.bits
/-- src/common/enums.rs:9439-9442 -/
def ObjectStateAppearanceGeneral.from_u16 (bits : UInt16) : Option ObjectStateAppearanceGeneral :=
  (flagsFromBits ObjectStateAppearanceGeneral.all bits.toNat).map fun _ => ⟨bits⟩
/-- src/common/enums.rs:9445-9449 -/
instance : FieldSerialize ObjectStateAppearanceGeneral := ⟨fun self => putU16 self.as_u16⟩
/-- src/common/enums.rs:9451-9456 -/
instance : FieldDeserialize ObjectStateAppearanceGeneral := ⟨do
  let bits ← getU16
  return (ObjectStateAppearanceGeneral.from_u16 bits).getD dflt⟩
/-- src/common/enums.rs:9458-9462 -/
instance : FieldLen ObjectStateAppearanceGeneral := ⟨fun _ => 2⟩

/-- src/common/enums.rs:1346-1376 -/
structure LandPlatformAppearance where
  bits : UInt32
  deriving DecidableEq, Repr
/-- src/common/enums.rs:1349 -/ def LandPlatformAppearance.PaintScheme : LandPlatformAppearance := ⟨(1 : UInt32) <<< 0⟩
/-- src/common/enums.rs:1350 -/ def LandPlatformAppearance.MobilityKilled : LandPlatformAppearance := ⟨(1 : UInt32) <<< 1⟩
/-- src/common/enums.rs:1351 -/ def LandPlatformAppearance.FirePowerKilled : LandPlatformAppearance := ⟨(1 : UInt32) <<< 2⟩
/-- src/common/enums.rs:1352 -/ def LandPlatformAppearance.Damage : LandPlatformAppearance := ⟨(1 : UInt32) <<< 3⟩
/-- src/common/enums.rs:1353 -/ def LandPlatformAppearance.IsSmokeEmanating : LandPlatformAppearance := ⟨(1 : UInt32) <<< 5⟩
/-- src/common/enums.rs:1354 -/ def LandPlatformAppearance.IsEngineEmittingSmoke : LandPlatformAppearance := ⟨(1 : UInt32) <<< 6⟩
/-- src/common/enums.rs:1355 -/ def LandPlatformAppearance.TrailingDustCloud : LandPlatformAppearance := ⟨(1 : UInt32) <<< 7⟩
/-- src/common/enums.rs:1356 -/ def LandPlatformAppearance.PrimaryHatch : LandPlatformAppearance := ⟨(1 : UInt32) <<< 9⟩
/-- src/common/enums.rs:1357 -/ def LandPlatformAppearance.HeadLightsOn : LandPlatformAppearance := ⟨(1 : UInt32) <<< 12⟩
/-- src/common/enums.rs:1358 -/ def LandPlatformAppearance.TailLightsOn : LandPlatformAppearance := ⟨(1 : UInt32) <<< 13⟩
/-- src/common/enums.rs:1359 -/ def LandPlatformAppearance.BrakeLightsOn : LandPlatformAppearance := ⟨(1 : UInt32) <<< 14⟩
/-- src/common/enums.rs:1360 -/ def LandPlatformAppearance.IsFlaming : LandPlatformAppearance := ⟨(1 : UInt32) <<< 15⟩
/-- src/common/enums.rs:1361 -/ def LandPlatformAppearance.LauncherOperational : LandPlatformAppearance := ⟨(1 : UInt32) <<< 16⟩
/-- src/common/enums.rs:1362 -/ def LandPlatformAppearance.CamouflageType : LandPlatformAppearance := ⟨(1 : UInt32) <<< 17⟩
/-- src/common/enums.rs:1363 -/ def LandPlatformAppearance.ConcealedPosition : LandPlatformAppearance := ⟨(1 : UInt32) <<< 19⟩
/-- src/common/enums.rs:1364 -/ def LandPlatformAppearance.IsFrozen : LandPlatformAppearance := ⟨(1 : UInt32) <<< 21⟩
/-- src/common/enums.rs:1365 -/ def LandPlatformAppearance.PowerPlantOn : LandPlatformAppearance := ⟨(1 : UInt32) <<< 22⟩
/-- src/common/enums.rs:1366 -/ def LandPlatformAppearance.State : LandPlatformAppearance := ⟨(1 : UInt32) <<< 23⟩
/-- src/common/enums.rs:1367 -/ def LandPlatformAppearance.TentExtended : LandPlatformAppearance := ⟨(1 : UInt32) <<< 24⟩
/-- src/common/enums.rs:1368 -/ def LandPlatformAppearance.RampExtended : LandPlatformAppearance := ⟨(1 : UInt32) <<< 25⟩
/-- src/common/enums.rs:1369 -/ def LandPlatformAppearance.BlackoutLightsOn : LandPlatformAppearance := ⟨(1 : UInt32) <<< 26⟩
/-- src/common/enums.rs:1370 -/ def LandPlatformAppearance.BlackoutBrakeLightsOn : LandPlatformAppearance := ⟨(1 : UInt32) <<< 27⟩
/-- src/common/enums.rs:1371 -/ def LandPlatformAppearance.SpotSearchLight1On : LandPlatformAppearance := ⟨(1 : UInt32) <<< 28⟩
/-- src/common/enums.rs:1372 -/ def LandPlatformAppearance.InteriorLightsOn : LandPlatformAppearance := ⟨(1 : UInt32) <<< 29⟩
/-- src/common/enums.rs:1373 -/ def LandPlatformAppearance.OccupantsSurrendered : LandPlatformAppearance := ⟨(1 : UInt32) <<< 30⟩
/-- src/common/enums.rs:1374 -/ def LandPlatformAppearance.MaskedCloaked : LandPlatformAppearance := ⟨(1 : UInt32) <<< 31⟩
/-- src/common/enums.rs:1349-1374: the flags with their names (`Flags::FLAGS`, generated by `bitflags!`) -/
def LandPlatformAppearance.flags : List (String × LandPlatformAppearance) := [
  ("PaintScheme", .PaintScheme),
  ("MobilityKilled", .MobilityKilled),
  ("FirePowerKilled", .FirePowerKilled),
  ("Damage", .Damage),
  ("IsSmokeEmanating", .IsSmokeEmanating),
  ("IsEngineEmittingSmoke", .IsEngineEmittingSmoke),
  ("TrailingDustCloud", .TrailingDustCloud),
  ("PrimaryHatch", .PrimaryHatch),
  ("HeadLightsOn", .HeadLightsOn),
  ("TailLightsOn", .TailLightsOn),
  ("BrakeLightsOn", .BrakeLightsOn),
  ("IsFlaming", .IsFlaming),
  ("LauncherOperational", .LauncherOperational),
  ("CamouflageType", .CamouflageType),
  ("ConcealedPosition", .ConcealedPosition),
  ("IsFrozen", .IsFrozen),
  ("PowerPlantOn", .PowerPlantOn),
  ("State", .State),
  ("TentExtended", .TentExtended),
  ("RampExtended", .RampExtended),
  ("BlackoutLightsOn", .BlackoutLightsOn),
  ("BlackoutBrakeLightsOn", .BlackoutBrakeLightsOn),
  ("SpotSearchLight1On", .SpotSearchLight1On),
  ("InteriorLightsOn", .InteriorLightsOn),
  ("OccupantsSurrendered", .OccupantsSurrendered),
  ("MaskedCloaked", .MaskedCloaked)]
/-- src/common/enums.rs:1349-1374: the union of the flags (`all()`, generated by `bitflags!`) -/
def LandPlatformAppearance.all : Nat := (LandPlatformAppearance.flags.map fun f => f.2.bits.toNat).foldl (· ||| ·) 0
/-- src/common/enums.rs:1348: `empty()`, generated by `bitflags!` -/
def LandPlatformAppearance.empty : LandPlatformAppearance := ⟨0⟩
/-- src/common/enums.rs:1348: `contains`, generated by `bitflags!` -/
def LandPlatformAppearance.contains (self other : LandPlatformAppearance) : Bool := self.bits &&& other.bits == other.bits
/-- src/common/enums.rs:1348: `insert`, generated by `bitflags!` -/
def LandPlatformAppearance.insert (self other : LandPlatformAppearance) : LandPlatformAppearance := ⟨self.bits ||| other.bits⟩
/-- src/common/enums.rs:1348: `remove`, generated by `bitflags!` -/
def LandPlatformAppearance.remove (self other : LandPlatformAppearance) : LandPlatformAppearance := ⟨self.bits &&& ~~~other.bits⟩
/-- src/common/enums.rs:1348: `toggle`, generated by `bitflags!` -/
def LandPlatformAppearance.toggle (self other : LandPlatformAppearance) : LandPlatformAppearance := ⟨self.bits ^^^ other.bits⟩
/-- src/common/enums.rs:1378-1382 -/
instance : RDefault LandPlatformAppearance := ⟨LandPlatformAppearance.empty⟩
/-- src/common/enums.rs:1385-1388 -/
def LandPlatformAppearance.as_u32 (self : LandPlatformAppearance) : UInt32 := self.bits
/-- src/common/enums.rs:1390-1393 -/
def LandPlatformAppearance.from_u32 (bits : UInt32) : Option LandPlatformAppearance :=
  (flagsFromBits LandPlatformAppearance.all bits.toNat).map fun _ => ⟨bits⟩

end Dis
