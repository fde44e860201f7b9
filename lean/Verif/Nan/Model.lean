import Verif.Fusion.Model

/-!
# Model of the complementary filter over numbers that need not be numbers

`src/vector3d.cpp`, `src/sensor_fusion/quaternion.cpp`, `src/sensor_fusion/complementary_filter.cpp` once more, over any arithmetic
that has values that are not numbers (NaN). Nothing is assumed of rounding, of infinities or of the range of the numbers. The two
low-passed measurements of the filter, which nothing reads, are left out.
-/

namespace Verif.Nan

open Verif.Fusion (CfConfig)

/-- The operations the code uses. -/
structure Arithmetic (α : Type) where
  /-- A literal, a setting or a whole number as a `double`. -/
  lit : ℝ → α
  add : α → α → α
  sub : α → α → α
  mul : α → α → α
  div : α → α → α
  neg : α → α
  abs : α → α
  sqrt : α → α
  sin : α → α
  cos : α → α
  asin : α → α
  atan2 : α → α → α
  copysign : α → α → α
  log : α → α
  /-- `complementary_filter.cpp` 18-23: what the two loops of `to_minus_Pi_Pi` compute. -/
  wrap : α → α
  /-- The comparisons `<` and `<=`. -/
  lt : α → α → Prop
  le : α → α → Prop
  /-- The value is not a number. -/
  nan : α → Prop

/-- `vector3d.h`: `class Vector3d`. -/
structure Vec (α : Type) where
  x : α
  y : α
  z : α

/-- `quaternion.h` 21-28: `class Quaternion`. -/
structure Quat (α : Type) where
  w : α
  x : α
  y : α
  z : α

/-- `measurement_types.h`: a sensor measurement. -/
structure Msr (α : Type) where
  type : SensorType
  values : Vec α
  ts : Int

section
variable {α : Type} (A : Arithmetic α)

/-- `vector3d.cpp` 24-27: `magnitude`. -/
def magnitude (v : Vec α) : α := A.sqrt (A.add (A.add (A.mul v.x v.x) (A.mul v.y v.y)) (A.mul v.z v.z))

open Classical in
/-- `vector3d.cpp` 29-35: `normalized`. -/
noncomputable def vnormalized (v : Vec α) : Vec α :=
  let length := magnitude A v
  if A.lt (A.lit Fusion.EPSILON) (A.abs length) then ⟨A.div v.x length, A.div v.y length, A.div v.z length⟩ else v

/-- `vector3d.cpp`: multiplication by a number. -/
def vscale (k : α) (v : Vec α) : Vec α := ⟨A.mul v.x k, A.mul v.y k, A.mul v.z k⟩

/-- `vector3d.cpp`: addition. -/
def vadd (a b : Vec α) : Vec α := ⟨A.add a.x b.x, A.add a.y b.y, A.add a.z b.z⟩

/-- `vector3d.cpp` 100-105: `crossProduct`. -/
def cross (a b : Vec α) : Vec α :=
  ⟨A.sub (A.mul a.y b.z) (A.mul a.z b.y), A.sub (A.mul a.z b.x) (A.mul a.x b.z), A.sub (A.mul a.x b.y) (A.mul a.y b.x)⟩

/-- `quaternion.cpp` 21-23: the constructor from a vector. -/
def ofVec (v : Vec α) : Quat α := ⟨A.lit 0, v.x, v.y, v.z⟩

/-- `quaternion.h` 37: `conj`. -/
def conj (q : Quat α) : Quat α := ⟨q.w, A.neg q.x, A.neg q.y, A.neg q.z⟩

/-- `quaternion.h` 38: `toVector3d`. -/
def toVec (q : Quat α) : Vec α := ⟨q.x, q.y, q.z⟩

/-- `quaternion.cpp` 54-61, 91-94. -/
def qadd (p q : Quat α) : Quat α := ⟨A.add p.w q.w, A.add p.x q.x, A.add p.y q.y, A.add p.z q.z⟩

/-- `quaternion.cpp` 72-79, 101-104. -/
def qscale (q : Quat α) (k : α) : Quat α := ⟨A.mul q.w k, A.mul q.x k, A.mul q.y k, A.mul q.z k⟩

/-- `quaternion.cpp` 81-89, 111-114. -/
def qmul (q r : Quat α) : Quat α :=
  ⟨A.sub (A.sub (A.sub (A.mul q.w r.w) (A.mul q.x r.x)) (A.mul q.y r.y)) (A.mul q.z r.z),
   A.sub (A.add (A.add (A.mul q.w r.x) (A.mul q.x r.w)) (A.mul q.y r.z)) (A.mul q.z r.y),
   A.add (A.add (A.sub (A.mul q.w r.y) (A.mul q.x r.z)) (A.mul q.y r.w)) (A.mul q.z r.x),
   A.add (A.sub (A.add (A.mul q.w r.z) (A.mul q.x r.y)) (A.mul q.y r.x)) (A.mul q.z r.w)⟩

open Classical in
/-- `quaternion.cpp` 25-32: `normalized`. -/
noncomputable def qnormalized (q : Quat α) : Quat α :=
  let norm := A.sqrt (A.add (A.add (A.add (A.mul q.w q.w) (A.mul q.x q.x)) (A.mul q.y q.y)) (A.mul q.z q.z))
  if A.lt (A.lit Fusion.EPSILON) (A.abs norm) then ⟨A.div q.w norm, A.div q.x norm, A.div q.y norm, A.div q.z norm⟩ else q

/-- Roll, pitch and yaw. -/
structure Euler (α : Type) where
  roll : α
  pitch : α
  yaw : α

open Classical in
/-- `quaternion.cpp` 34-52: `toEuler`. -/
noncomputable def toEuler (q : Quat α) : Euler α :=
  let sinr := A.mul (A.lit 2) (A.add (A.mul q.w q.x) (A.mul q.y q.z))
  let cosr := A.sub (A.lit 1) (A.mul (A.lit 2) (A.add (A.mul q.x q.x) (A.mul q.y q.y)))
  let sinp := A.mul (A.lit 2) (A.sub (A.mul q.w q.y) (A.mul q.z q.x))
  let siny := A.mul (A.lit 2) (A.add (A.mul q.w q.z) (A.mul q.x q.y))
  let cosy := A.sub (A.lit 1) (A.mul (A.lit 2) (A.add (A.mul q.y q.y) (A.mul q.z q.z)))
  ⟨A.atan2 sinr cosr,
   if A.le (A.lit 1) (A.abs sinp) then A.copysign (A.lit (Real.pi / 2)) sinp else A.asin sinp,
   A.atan2 siny cosy⟩

/-- `complementary_filter.cpp` 25-30: `updateQuaternion`. -/
noncomputable def updateQuaternion (q : Quat α) (v : Vec α) : Quat α :=
  qnormalized A (qadd A q (qscale A (qmul A q (ofVec A v)) (A.lit 0.5)))

/-- `complementary_filter.h` 61-76: the members of the filter. -/
structure State (α : Type) where
  currentTs : Int
  lastGyroTs : Int
  lastDeviceAzimuthTs : Int
  integralError : Vec α
  q : Quat α
  magneticAzimuth : α
  deviceAzimuth : α
  gyroHeading : α

/-- `complementary_filter.h` 61-76: their initial values. -/
def init : State α := ⟨-1, -1, -1, ⟨A.lit 0, A.lit 0, A.lit 0⟩, ⟨A.lit 1, A.lit 0, A.lit 0, A.lit 0⟩, A.lit 0, A.lit 0, A.lit 0⟩

/-- `complementary_filter.cpp` 45-50: the angles of `getFusedOrientation`. -/
noncomputable def orientation (s : State α) : Euler α := toEuler A s.q

/-- `complementary_filter.cpp` 53-58: `getFusedAzimuth`. -/
noncomputable def fusedAzimuth (s : State α) : α := A.neg (toEuler A s.q).yaw

open Classical in
/-- `complementary_filter.cpp` 140, 158: the addend of the integral error. -/
noncomputable def integralTerm (c : CfConfig) (error : Vec α) : Vec α :=
  if A.lt (A.lit Fusion.CF_DOUBLE_EPSILON) (A.lit c.ki) then vscale A (A.lit c.ki) error else ⟨A.lit 0, A.lit 0, A.lit 0⟩

/-- `complementary_filter.cpp` 123-130: `updateUsingGyroscope`. -/
noncomputable def useGyroscope (s : State α) (m : Msr α) : State α :=
  let dt := A.div (A.lit ((m.ts - s.lastGyroTs : Int) : ℝ)) (A.lit 1000)
  let omega := vadd A (vscale A dt m.values) (vscale A dt s.integralError)
  { s with lastGyroTs := m.ts, q := updateQuaternion A s.q omega }

/-- `complementary_filter.cpp` 132-141: `updateUsingAccelerometer`. -/
noncomputable def useAccelerometer (c : CfConfig) (s : State α) (m : Msr α) : State α :=
  let acc := vnormalized A m.values
  let grav := toVec (qmul A (qmul A (conj A s.q) ⟨A.lit 0, A.lit 0, A.lit 0, A.lit 1⟩) s.q)
  let error := cross A acc grav
  let rotation := vscale A (A.lit c.ka) error
  { s with q := updateQuaternion A s.q rotation, integralError := vadd A s.integralError (integralTerm A c error) }

open Classical in
/-- `complementary_filter.cpp` 143-159: `updateUsingMagnetometer`. -/
noncomputable def useMagnetometer (c : CfConfig) (s : State α) (m : Msr α) : State α :=
  let magn := vnormalized A m.values
  if A.lt (magnitude A magn) (A.lit Fusion.CF_DOUBLE_EPSILON) then s
  else
    let g := toVec (qmul A (qmul A s.q (ofVec A magn)) (conj A s.q))
    let magnGlobalFrame : Vec α := ⟨A.lit 0, A.sqrt (A.add (A.mul g.y g.y) (A.mul g.x g.x)), g.z⟩
    let magnSensorFrame := toVec (qmul A (qmul A (conj A s.q) (ofVec A magnGlobalFrame)) s.q)
    let error := cross A magn magnSensorFrame
    let rotation := vscale A (A.lit c.km) error
    { s with q := updateQuaternion A s.q rotation, integralError := vadd A s.integralError (integralTerm A c error) }

/-- `complementary_filter.cpp` 161-174: `calculateMagneticAzimuth`. -/
noncomputable def magneticAzimuthOf (q : Quat α) (m : Msr α) : α :=
  let halfYaw := A.div (toEuler A q).yaw (A.lit 2)
  let quatDifference := qnormalized A ⟨A.sin halfYaw, A.lit 0, A.lit 0, A.cos halfYaw⟩
  let quatZeroYaw := qmul A quatDifference q
  let magnetometer := vnormalized A m.values
  let magnGlobalFrame := toVec (qmul A (qmul A quatZeroYaw (ofVec A magnetometer)) (conj A quatZeroYaw))
  A.wrap (A.add (A.lit (Real.pi / 2)) (A.atan2 magnGlobalFrame.y magnGlobalFrame.x))

/-- `complementary_filter.cpp` 79-112: `update`. -/
noncomputable def update (c : CfConfig) (s : State α) (m : Msr α) : State α :=
  let s := match m.type with
    | .ACCELEROMETER => useAccelerometer A c s m
    | .MAGNETOMETER =>
      let s := if s.lastGyroTs = -1 then useMagnetometer A c s m else s
      { s with magneticAzimuth := magneticAzimuthOf A s.q m }
    | .GYROSCOPE =>
      let s := if s.lastGyroTs = -1 then { s with lastGyroTs := m.ts } else s
      let s := useGyroscope A s m
      { s with gyroHeading := fusedAzimuth A s }
    | .ORIENTATION => { s with deviceAzimuth := m.values.x, lastDeviceAzimuthTs := m.ts }
    | _ => s
  { s with currentTs := m.ts }

/-- The filter after a sequence of messages. -/
noncomputable def run (c : CfConfig) (s : State α) (ms : List (Msr α)) : State α := ms.foldl (update A c) s

end

end Verif.Nan
