import Verif.Fusion.Model

/-!
# Model of the stand-alone complementary filter: `standalone_algorithms/complementary_filter`

Line numbers refer to `standalone_algorithms/complementary_filter/src/complementary_filter.cpp` unless a
header is named.  `vector3d.cpp` and `quaternion.cpp` of the stand-alone filter differ from those of the
library by white space only, apart from the equality of vectors, so their models are shared
(`Fusion.Quat`, `Fusion.vnormalized`, `Fusion.cross`, `Fusion.toEuler`).  `double` is modelled by ℝ.
-/

namespace Verif.Standalone.Cf

open Verif Verif.Pedo Verif.Fusion

/-- `complementary_filter.h` 9-16: `struct SensorMeasurement`. -/
structure Measurement where
  type : SensorType
  ts : Int
  values : Vector3d

/-- `complementary_filter.h` 39-43, 59-61: the gains. -/
structure Gains where
  ka : ℝ
  km : ℝ
  ki : ℝ

/-- `complementary_filter.h` 38, 59-61: the gains of the default constructor. -/
noncomputable def defaultGains : Gains := ⟨0.1, 0.05, 0⟩

/-- `complementary_filter.h` 57-67: the members that change. -/
structure State where
  currentTs : Int
  lastGyroTs : Int
  integralError : Vector3d
  q : Quat
  magneticAzimuth : ℝ
  deviceAzimuth : ℝ
  magnLowPassed : Measurement
  accelLowPassed : Measurement

/-- `complementary_filter.h` 13-15, 57-67: the initial values.  The types of the two low passed
measurements are not initialised (parameters here); their time is -1, their vector zero. -/
def init (junk1 junk2 : SensorType) : State where
  currentTs := -1
  lastGyroTs := -1
  integralError := ⟨0, 0, 0⟩
  q := Quat.one
  magneticAzimuth := 0
  deviceAzimuth := 0
  magnLowPassed := ⟨junk1, -1, ⟨0, 0, 0⟩⟩
  accelLowPassed := ⟨junk2, -1, ⟨0, 0, 0⟩⟩

/-- 8: `DOUBLE_EPSILON`. -/
noncomputable def DOUBLE_EPSILON : ℝ := 1e-8

/-- 17-22: `updateQuaternion`. -/
noncomputable def updateQuaternion (q : Quat) (v : Vector3d) : Quat :=
  let qDot := (q.mul (Quat.ofVec v)).scale 0.5
  let qOut := q.add qDot
  qOut.normalized

/-- 24-33: `lowPassFilter`. -/
noncomputable def lowPassFilter (prev cur : Measurement) : Measurement :=
  let dt : ℝ := ((cur.ts - prev.ts : Int) : ℝ) / 1000.0
  let alpha := 1.0 / (1.0 + max dt 0.02)
  { cur with values := vadd (vscale alpha prev.values) (vscale (1 - alpha) cur.values) }

/-- 38-43: `getFusedOrientation`. -/
noncomputable def getFusedOrientation (s : State) : Orientation :=
  ⟨(toEuler s.q).1, (toEuler s.q).2.1, (toEuler s.q).2.2, s.currentTs⟩

/-- 46-51: `getFusedAzimuth`. -/
noncomputable def getFusedAzimuth (s : State) : ℝ := -(toEuler s.q).2.2

/-- 54-57: `getMagneticAzimuth`. -/
def getMagneticAzimuth (s : State) : ℝ := s.magneticAzimuth

/-- 60-63: `getDeviceAzimuth`. -/
def getDeviceAzimuth (s : State) : ℝ := s.deviceAzimuth

/-- 99-106: `updateUsingGyroscope`. -/
noncomputable def updateUsingGyroscope (s : State) (gyro : Measurement) : State :=
  let dt : ℝ := ((gyro.ts - s.lastGyroTs : Int) : ℝ) / 1000.0
  let s := { s with lastGyroTs := gyro.ts }
  let omega := vadd (vscale dt gyro.values) (vscale dt s.integralError)
  { s with q := updateQuaternion s.q omega }

/-- 108-117: `updateUsingAccelerometer`. -/
noncomputable def updateUsingAccelerometer (g : Gains) (s : State) (accel : Measurement) : State :=
  let acc := vnormalized accel.values
  let gravSensorFrame := ((s.q.conj.mul ⟨0, 0, 0, 1⟩).mul s.q).toVec
  let error := cross acc gravSensorFrame
  let rotation := vscale g.ka error
  { s with
    q := updateQuaternion s.q rotation
    integralError := vadd s.integralError (if g.ki > DOUBLE_EPSILON then vscale g.ki error else ⟨0, 0, 0⟩) }

/-- 119-135: `updateUsingMagnetometer`. -/
noncomputable def updateUsingMagnetometer (g : Gains) (s : State) (m : Measurement) : State :=
  let magn := vnormalized m.values
  if magnitude magn < DOUBLE_EPSILON then s
  else
    let magnGlobalFrame := ((s.q.mul (Quat.ofVec magn)).mul s.q.conj).toVec
    let magnGlobalFrame := { magnGlobalFrame with
      y := Real.sqrt (magnGlobalFrame.y * magnGlobalFrame.y + magnGlobalFrame.x * magnGlobalFrame.x) }
    let magnGlobalFrame := { magnGlobalFrame with x := 0 }
    let magnSensorFrame := ((s.q.conj.mul (Quat.ofVec magnGlobalFrame)).mul s.q).toVec
    let error := cross magn magnSensorFrame
    let rotation := vscale g.km error
    { s with
      q := updateQuaternion s.q rotation
      integralError := vadd s.integralError (if g.ki > DOUBLE_EPSILON then vscale g.ki error else ⟨0, 0, 0⟩) }

/-- 137-151: `caclulateMagneticAzimuth`; `to_minus_Pi_Pi` (10-15) is the one of the library. -/
noncomputable def calculateMagneticAzimuth (s : State) (m : Measurement) : ℝ :=
  let yaw := (toEuler s.q).2.2
  let halfYaw := yaw / 2
  let quatDifference := (⟨Real.sin halfYaw, 0, 0, Real.cos halfYaw⟩ : Quat).normalized
  let quatZeroYaw := quatDifference.mul s.q
  let magnetometer := vnormalized m.values
  let magnGlobalFrame := ((quatZeroYaw.mul (Quat.ofVec magnetometer)).mul quatZeroYaw.conj).toVec
  toMinusPiPi (Real.pi / 2 + atan2 magnGlobalFrame.y magnGlobalFrame.x)

/-- 66-97: `update`. -/
noncomputable def update (g : Gains) (s : State) (m : Measurement) : State :=
  let s :=
    if m.type = .ACCELEROMETER then
      let s := { s with accelLowPassed := lowPassFilter s.accelLowPassed m }
      updateUsingAccelerometer g s m
    else if m.type = .MAGNETOMETER then
      let s := { s with magnLowPassed := lowPassFilter s.magnLowPassed m }
      let s := if s.lastGyroTs = -1 then updateUsingMagnetometer g s m else s
      { s with magneticAzimuth := calculateMagneticAzimuth s m }
    else if m.type = .GYROSCOPE then
      let s := if s.lastGyroTs = -1 then { s with lastGyroTs := m.ts } else s
      updateUsingGyroscope s m
    else if m.type = .ORIENTATION then { s with deviceAzimuth := m.values.x }
    else s
  { s with currentTs := m.ts }

end Verif.Standalone.Cf
