import Verif.Pedo.Model
import Verif.Settings
import Verif.Arith
import Mathlib.Analysis.SpecialFunctions.Complex.Arg

/-!
# Model of the sensor fusion: `src/vector3d.cpp`, `src/sensor_fusion/quaternion.cpp`,
`complementary_filter.cpp`, `sensor_fusion.cpp`

`double` is modelled by ℝ.  The stand-alone complementary filter
(`standalone_algorithms/complementary_filter/src`) has the same text apart from names, and lacks the
lifetime of the device azimuth.
-/

namespace Verif.Fusion

open Verif Verif.Pedo

/-! ## Vectors -/

/-- `std::numeric_limits<double>::epsilon()`. -/
noncomputable def EPSILON : ℝ := 2 ^ (-52 : ℤ)

/-- `vector3d.cpp` 29-35: `normalized`. -/
noncomputable def vnormalized (v : Vector3d) : Vector3d :=
  if |magnitude v| > EPSILON then ⟨v.x ÷ magnitude v, v.y ÷ magnitude v, v.z ÷ magnitude v⟩ else v

theorem epsilon_pos : 0 < EPSILON := by unfold EPSILON; positivity

theorem vnormalized_eq (v : Vector3d) : vnormalized v =
    if |magnitude v| > EPSILON then ⟨v.x / magnitude v, v.y / magnitude v, v.z / magnitude v⟩ else v := by
  unfold vnormalized
  split_ifs with h
  · have h0 : magnitude v ≠ 0 := by
      intro h0; rw [h0, abs_zero] at h; exact absurd h (not_lt.mpr epsilon_pos.le)
    rw [divide_eq h0, divide_eq h0, divide_eq h0]
  · rfl

/-- `vector3d.h`: `operator*(double, const Vector3d&)`. -/
noncomputable def vscale (k : ℝ) (v : Vector3d) : Vector3d := ⟨v.x * k, v.y * k, v.z * k⟩

/-- `vector3d.h`: `operator+`. -/
noncomputable def vadd (a b : Vector3d) : Vector3d := ⟨a.x + b.x, a.y + b.y, a.z + b.z⟩

/-- `vector3d.cpp` 100-105: `crossProduct`. -/
noncomputable def cross (a b : Vector3d) : Vector3d :=
  ⟨a.y * b.z - a.z * b.y, a.z * b.x - a.x * b.z, a.x * b.y - a.y * b.x⟩

/-! ## Quaternions -/

/-- `quaternion.h` 21-28: `class Quaternion`. -/
@[ext]
structure Quat where
  w : ℝ
  x : ℝ
  y : ℝ
  z : ℝ

namespace Quat

/-- `quaternion.h` 24-27: the default quaternion. -/
def one : Quat := ⟨1, 0, 0, 0⟩

/-- `quaternion.cpp` 21-23: the constructor from a vector. -/
def ofVec (v : Vector3d) : Quat := ⟨0, v.x, v.y, v.z⟩

/-- `quaternion.h` 37: `conj`. -/
noncomputable def conj (q : Quat) : Quat := ⟨q.w, -q.x, -q.y, -q.z⟩

/-- `quaternion.h` 38: `toVector3d`. -/
def toVec (q : Quat) : Vector3d := ⟨q.x, q.y, q.z⟩

/-- `quaternion.cpp` 54-61, 91-94. -/
noncomputable def add (p q : Quat) : Quat := ⟨p.w + q.w, p.x + q.x, p.y + q.y, p.z + q.z⟩

/-- `quaternion.cpp` 72-79, 101-104. -/
noncomputable def scale (q : Quat) (k : ℝ) : Quat := ⟨q.w * k, q.x * k, q.y * k, q.z * k⟩

/-- `quaternion.cpp` 81-89, 111-114. -/
noncomputable def mul (q r : Quat) : Quat :=
  ⟨q.w * r.w - q.x * r.x - q.y * r.y - q.z * r.z,
   q.w * r.x + q.x * r.w + q.y * r.z - q.z * r.y,
   q.w * r.y - q.x * r.z + q.y * r.w + q.z * r.x,
   q.w * r.z + q.x * r.y - q.y * r.x + q.z * r.w⟩

/-- `quaternion.cpp` 25-32: `normalized`. -/
noncomputable def normalized (q : Quat) : Quat :=
  let norm := Real.sqrt (q.w * q.w + q.x * q.x + q.y * q.y + q.z * q.z)
  if |norm| > EPSILON then ⟨q.w ÷ norm, q.x ÷ norm, q.y ÷ norm, q.z ÷ norm⟩ else q

theorem normalized_div (q : Quat) : normalized q =
    (let norm := Real.sqrt (q.w * q.w + q.x * q.x + q.y * q.y + q.z * q.z)
     if |norm| > EPSILON then ⟨q.w / norm, q.x / norm, q.y / norm, q.z / norm⟩ else q) := by
  unfold normalized
  dsimp only
  split_ifs with h
  · have h0 : Real.sqrt (q.w * q.w + q.x * q.x + q.y * q.y + q.z * q.z) ≠ 0 := by
      intro h0; rw [h0, abs_zero] at h; exact absurd h (not_lt.mpr epsilon_pos.le)
    rw [divide_eq h0, divide_eq h0, divide_eq h0, divide_eq h0]
  · rfl

end Quat

/-- `std::atan2`.  On the reals its values lie in (-π, π]; the -π that floating point gives for a
negative zero is not modelled. -/
noncomputable def atan2 (y x : ℝ) : ℝ := Complex.arg ⟨x, y⟩

/-- `quaternion.cpp` 34-52: `toEuler`, giving roll, pitch and yaw. -/
noncomputable def toEuler (q : Quat) : ℝ × ℝ × ℝ :=
  let sinr := 2 * (q.w * q.x + q.y * q.z)
  let cosr := 1 - 2 * (q.x * q.x + q.y * q.y)
  let roll := atan2 sinr cosr
  let sinp := 2 * (q.w * q.y - q.z * q.x)
  let pitch := if |sinp| ≥ 1 then (if sinp < 0 then -(Real.pi / 2) else Real.pi / 2) else asin sinp
  let siny := 2 * (q.w * q.z + q.x * q.y)
  let cosy := 1 - 2 * (q.y * q.y + q.z * q.z)
  let yaw := atan2 siny cosy
  (roll, pitch, yaw)

theorem toEuler_eq (q : Quat) : toEuler q =
    (let sinr := 2 * (q.w * q.x + q.y * q.z)
     let cosr := 1 - 2 * (q.x * q.x + q.y * q.y)
     let roll := atan2 sinr cosr
     let sinp := 2 * (q.w * q.y - q.z * q.x)
     let pitch := if |sinp| ≥ 1 then (if sinp < 0 then -(Real.pi / 2) else Real.pi / 2) else Real.arcsin sinp
     let siny := 2 * (q.w * q.z + q.x * q.y)
     let cosy := 1 - 2 * (q.y * q.y + q.z * q.z)
     let yaw := atan2 siny cosy
     (roll, pitch, yaw)) := by
  unfold toEuler
  dsimp only
  by_cases h : |2 * (q.w * q.y - q.z * q.x)| ≥ 1
  · rw [if_pos h, if_pos h]
  · rw [if_neg h, if_neg h, asin_eq (not_le.mp h).le]

/-! ## Complementary filter -/

/-- `complementary_filter.cpp` 20: the first loop, with a bound on the number of iterations. -/
noncomputable def subLoop : ℕ → ℝ → ℝ
  | 0, x => x
  | n + 1, x => if x ≥ Real.pi then subLoop n (x - 2 * Real.pi) else x

/-- `complementary_filter.cpp` 21: the second loop, with a bound on the number of iterations. -/
noncomputable def addLoop : ℕ → ℝ → ℝ
  | 0, x => x
  | n + 1, x => if x < -Real.pi then addLoop n (x + 2 * Real.pi) else x

/-- `complementary_filter.cpp` 18-23: `to_minus_Pi_Pi`.  The loops have no bound in the code;
`C54_terminates` shows that they end, and with the result computed here. -/
noncomputable def toMinusPiPi (x : ℝ) : ℝ :=
  let n := ⌈|x|⌉₊ + 1
  addLoop n (subLoop n x)

/-- `complementary_filter.cpp` 25-30: `updateQuaternion`. -/
noncomputable def updateQuaternion (q : Quat) (v : Vector3d) : Quat :=
  (q.add ((q.mul (Quat.ofVec v)).scale 0.5)).normalized

/-- `complementary_filter.cpp` 35: the gain. -/
noncomputable def lpfAlpha (prevTs curTs : Int) : ℝ :=
  let dt : ℝ := ((curTs - prevTs : Int) : ℝ) / 1000.0
  1.0 / (1.0 + max dt 0.02)

/-- `complementary_filter.cpp` 32-41: `lowPassFilter`. -/
noncomputable def lowPassFilter (prev cur : SensorMeasurement) : SensorMeasurement :=
  let alpha := lpfAlpha prev.ts cur.ts
  ⟨⟨cur.data.type, vadd (vscale alpha prev.data.values) (vscale (1 - alpha) cur.data.values)⟩, cur.ts⟩

/-- The gains and the lifetime given to the constructor, `complementary_filter.h` 38-44. -/
structure CfConfig where
  ka : ℝ
  km : ℝ
  ki : ℝ
  lifetime : ℝ

/-- `complementary_filter.h` 61-76: the members of `ComplementaryFilter`. -/
structure CfState where
  currentTs : Int
  lastGyroTs : Int
  lastDeviceAzimuthTs : Int
  integralError : Vector3d
  q : Quat
  magneticAzimuth : ℝ
  deviceAzimuth : ℝ
  gyroHeading : ℝ
  magnLowPassed : SensorMeasurement
  accelLowPassed : SensorMeasurement

/-- `complementary_filter.h` 61-76: the initial values.  The two low passed measurements are default
initialised: their types and time stamps are indeterminate in the code, so they are parameters here
(`junk`); their vectors are zero by the constructor of `Vector3d`. -/
def cfInit (junk1 junk2 : SensorType × Int) : CfState where
  currentTs := -1
  lastGyroTs := -1
  lastDeviceAzimuthTs := -1
  integralError := ⟨0, 0, 0⟩
  q := Quat.one
  magneticAzimuth := 0
  deviceAzimuth := 0
  gyroHeading := 0
  magnLowPassed := ⟨⟨junk1.1, ⟨0, 0, 0⟩⟩, junk1.2⟩
  accelLowPassed := ⟨⟨junk2.1, ⟨0, 0, 0⟩⟩, junk2.2⟩

/-- `complementary_filter.cpp` 14. -/
noncomputable def CF_DOUBLE_EPSILON : ℝ := 1e-8

/-- `complementary_filter.h` 23-35: `struct Orientation`. -/
structure Orientation where
  roll : ℝ
  pitch : ℝ
  yaw : ℝ
  ts : Int

/-- `complementary_filter.cpp` 45-50: `getFusedOrientation`. -/
noncomputable def getFusedOrientation (s : CfState) : Orientation :=
  ⟨(toEuler s.q).1, (toEuler s.q).2.1, (toEuler s.q).2.2, s.currentTs⟩

/-- `complementary_filter.cpp` 53-58: `getFusedAzimuth`. -/
noncomputable def getFusedAzimuth (s : CfState) : ℝ := -(toEuler s.q).2.2

/-- `complementary_filter.cpp` 140, 158: the addend of the integral error. -/
noncomputable def integralTerm (c : CfConfig) (error : Vector3d) : Vector3d :=
  if c.ki > CF_DOUBLE_EPSILON then vscale c.ki error else ⟨0, 0, 0⟩

/-- `complementary_filter.cpp` 123-130: `updateUsingGyroscope`. -/
noncomputable def updateUsingGyroscope (s : CfState) (m : SensorMeasurement) : CfState :=
  let dt : ℝ := ((m.ts - s.lastGyroTs : Int) : ℝ) / 1000.0
  let omega := vadd (vscale dt m.data.values) (vscale dt s.integralError)
  { s with lastGyroTs := m.ts, q := updateQuaternion s.q omega }

/-- `complementary_filter.cpp` 135: the direction of gravity in the frame of the device. -/
noncomputable def gravSensorFrame (q : Quat) : Vector3d := ((q.conj.mul ⟨0, 0, 0, 1⟩).mul q).toVec

/-- `complementary_filter.cpp` 132-141: `updateUsingAccelerometer`. -/
noncomputable def updateUsingAccelerometer (c : CfConfig) (s : CfState) (m : SensorMeasurement) : CfState :=
  let acc := vnormalized m.data.values
  let error := cross acc (gravSensorFrame s.q)
  let rotation := vscale c.ka error
  { s with q := updateQuaternion s.q rotation, integralError := vadd s.integralError (integralTerm c error) }

/-- `complementary_filter.cpp` 143-159: `updateUsingMagnetometer`. -/
noncomputable def updateUsingMagnetometer (c : CfConfig) (s : CfState) (m : SensorMeasurement) : CfState :=
  let magn := vnormalized m.data.values
  if magnitude magn < CF_DOUBLE_EPSILON then s
  else
    let g := ((s.q.mul (Quat.ofVec magn)).mul s.q.conj).toVec
    let magnGlobalFrame : Vector3d := ⟨0, Real.sqrt (g.y * g.y + g.x * g.x), g.z⟩
    let magnSensorFrame := ((s.q.conj.mul (Quat.ofVec magnGlobalFrame)).mul s.q).toVec
    let error := cross magn magnSensorFrame
    let rotation := vscale c.km error
    { s with q := updateQuaternion s.q rotation, integralError := vadd s.integralError (integralTerm c error) }

/-- `complementary_filter.cpp` 161-174: `calculateMagneticAzimuth`. -/
noncomputable def calculateMagneticAzimuth (q : Quat) (m : SensorMeasurement) : ℝ :=
  let yaw := (toEuler q).2.2
  let halfYaw := yaw / 2
  let quatDifference := (⟨Real.sin halfYaw, 0, 0, Real.cos halfYaw⟩ : Quat).normalized
  let quatZeroYaw := quatDifference.mul q
  let magnetometer := vnormalized m.data.values
  let magnGlobalFrame := ((quatZeroYaw.mul (Quat.ofVec magnetometer)).mul quatZeroYaw.conj).toVec
  toMinusPiPi (Real.pi / 2 + atan2 magnGlobalFrame.y magnGlobalFrame.x)

/-- `complementary_filter.cpp` 79-112: `update`. -/
noncomputable def cfUpdate (c : CfConfig) (s : CfState) (m : SensorMeasurement) : CfState :=
  let s := match m.data.type with
    | .ACCELEROMETER =>
      updateUsingAccelerometer c { s with accelLowPassed := lowPassFilter s.accelLowPassed m } m
    | .MAGNETOMETER =>
      let s := { s with magnLowPassed := lowPassFilter s.magnLowPassed m }
      let s := if s.lastGyroTs = -1 then updateUsingMagnetometer c s m else s
      { s with magneticAzimuth := calculateMagneticAzimuth s.q m }
    | .GYROSCOPE =>
      let s := if s.lastGyroTs = -1 then { s with lastGyroTs := m.ts } else s
      let s := updateUsingGyroscope s m
      { s with gyroHeading := getFusedAzimuth s }
    | .ORIENTATION => { s with deviceAzimuth := m.data.values.x, lastDeviceAzimuthTs := m.ts }
    | _ => s
  { s with currentTs := m.ts }

/-- `complementary_filter.cpp` 114-121: `isDeviceAzimuthOutdated`. -/
noncomputable def isDeviceAzimuthOutdated (c : CfConfig) (s : CfState) : Bool :=
  let dt : ℝ := ((s.currentTs - s.lastDeviceAzimuthTs : Int) : ℝ) / 1000.0
  if dt > c.lifetime ∨ s.lastDeviceAzimuthTs = -1 then true else false

/-! ## Sensor fusion -/

/-- `motion_info.h` 16-43: `struct MotionInfo` with the values of its constructor. -/
structure MotionInfo where
  isStepDetected : Bool := false
  dtSec : ℝ := 0
  deltaAngle : ℝ := 0
  distance : ℝ := 0
  stepCounter : ℕ := 0
  heading : ℝ := 0
  azimuth : ℝ := 0
  lastMotionTs : Int := 0
  isAzimuthValid : Bool := false
  gyroHeading : ℝ := 0

/-- `sensor_fusion.h` 28-33: the constants of `SensorFusion`. -/
structure FusionConfig where
  useCalcAzimuth : Bool
  stepMultiplier : ℝ
  cf : CfConfig

/-- `sensor_fusion.h` 28-33: the state of `SensorFusion`. -/
structure FusionState where
  filter : CfState
  pedometer : PedoState
  stepCounter : ℕ
  prevHeading : ℝ

/-- `sensor_fusion.cpp` 9-15: the constructor. -/
def fusionInit (junk1 junk2 : SensorType × Int) : FusionState where
  filter := cfInit junk1 junk2
  pedometer := {}
  stepCounter := 0
  prevHeading := 0

/-- `sensor_fusion.cpp` 17-53: `calculateDisplacement`; `none` is undefined behaviour of the pedometer.
`int` and `size_t` do not overflow in the model. -/
noncomputable def calculateDisplacement (c : FusionConfig) (s : FusionState) (m : SensorMeasurement) (tsMs : Int) :
    Option (FusionState × MotionInfo) :=
  match update s.pedometer m with
  | none => none
  | some ped =>
    match calculateSteps ped with
    | none => none
    | some (ped, steps) =>
      let filter := cfUpdate c.cf s.filter m
      let info : MotionInfo := { heading := -getFusedAzimuth filter }
      let info := if c.useCalcAzimuth = true then
          { info with azimuth := filter.magneticAzimuth, isAzimuthValid := true }
        else if isDeviceAzimuthOutdated c.cf filter = false then
          { info with azimuth := filter.deviceAzimuth, isAzimuthValid := true }
        else info
      let info := { info with gyroHeading := filter.gyroHeading, isStepDetected := !steps.isEmpty }
      if info.isStepDetected = true then
        some (⟨filter, ped, s.stepCounter + steps.length, info.heading⟩,
          { info with
            deltaAngle := info.heading - s.prevHeading
            distance := steps.foldl (fun sum st => sum + st.len) 0 * c.stepMultiplier
            lastMotionTs := tsMs
            stepCounter := s.stepCounter + steps.length })
      else some (⟨filter, ped, s.stepCounter, s.prevHeading⟩, info)

/-- `sensor_fusion.cpp` 9-15 with the default gains of `complementary_filter.h` 38. -/
noncomputable def fusionConfig (c : CommonSettings) : FusionConfig where
  useCalcAzimuth := c.useCalculatedAzimuth
  stepMultiplier := c.stepMultiplier
  cf := ⟨0.1, 0.05, 0, c.deviceAzimuthLifetimeSeconds⟩

end Verif.Fusion
