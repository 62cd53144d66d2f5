import Verif.Model.Float32
import Verif.Model.Records
/-
Model of the arithmetic of src/common/data_types/vector3_float.rs:22-140 (the wire format of the same type is
in Verif.Model.Records).
-/
namespace Dis
namespace Vector3Float

/-- src/common/data_types/vector3_float.rs:24-28 -/
def new (x y z : F32) : Vector3Float := { x, y, z }
/-- src/common/data_types/vector3_float.rs:30-34 -/
def zero : Vector3Float := new .zero .zero .zero
/-- src/common/data_types/vector3_float.rs:36-40 -/
def one : Vector3Float := new .one .one .one
/-- src/common/data_types/vector3_float.rs:42-46 -/
def unit_x : Vector3Float := new .one .zero .zero
/-- src/common/data_types/vector3_float.rs:48-52 -/
def unit_y : Vector3Float := new .zero .one .zero
/-- src/common/data_types/vector3_float.rs:54-58 -/
def unit_z : Vector3Float := new .zero .zero .one

/-- src/common/data_types/vector3_float.rs:60-65 -/
def dot (self other : Vector3Float) : F32 :=
  self.z.mulAdd other.z (self.x.mulAdd other.x (self.y.mul other.y))

/-- src/common/data_types/vector3_float.rs:67-75 -/
def cross (self other : Vector3Float) : Vector3Float :=
  new
    (self.y.mulAdd other.z (self.z.mul other.y).negate)
    (self.z.mulAdd other.x (self.x.mul other.z).negate)
    (self.x.mulAdd other.y (self.y.mul other.x).negate)

/-- src/common/data_types/vector3_float.rs:77-83 -/
def magnitude (self : Vector3Float) : F32 :=
  (self.z.mulAdd self.z (self.x.mulAdd self.x (self.y.mul self.y))).sqrt

/-- src/common/data_types/vector3_float.rs:85-94 -/
def normalize (self : Vector3Float) : Option Vector3Float :=
  let mag := self.magnitude
  if mag.eq .zero then none
  else some (new (self.x.div mag) (self.y.div mag) (self.z.div mag))

/-- src/common/data_types/vector3_float.rs:110-116 -/
def add (self other : Vector3Float) : Vector3Float :=
  new (self.x.add other.x) (self.y.add other.y) (self.z.add other.z)

/-- src/common/data_types/vector3_float.rs:118-124 -/
def sub (self other : Vector3Float) : Vector3Float :=
  new (self.x.sub other.x) (self.y.sub other.y) (self.z.sub other.z)

/-- src/common/data_types/vector3_float.rs:126-132 -/
def mul (self : Vector3Float) (scalar : F32) : Vector3Float :=
  new (self.x.mul scalar) (self.y.mul scalar) (self.z.mul scalar)

/-- src/common/data_types/vector3_float.rs:134-140 -/
def div (self : Vector3Float) (scalar : F32) : Vector3Float :=
  new (self.x.div scalar) (self.y.div scalar) (self.z.div scalar)

end Vector3Float
end Dis
