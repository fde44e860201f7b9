import Verif.Checked.Ops
import Verif.Fusion.Model

/-!
# Pedometer and complementary filter with checked arithmetic

The definitions are those of `Verif/Pedo/Model.lean` and `Verif/Fusion/Model.lean` (which cite the code), with the operations of
`Verif/Checked/Ops.lean`; `none` is an operation outside its domain.  Where `&&` and `||` of the code would skip a subtraction it
is checked all the same.
-/

namespace Verif.Checked

open Verif Verif.Pedo Verif.Fusion

/-- `vector3d.cpp` 24-27: `magnitude`. -/
noncomputable def magnitude (v : Vector3d) : Option ℝ := sqrt (v.x * v.x + v.y * v.y + v.z * v.z)

/-! ## Pedometer -/

/-- `pedometer.cpp` 81-83, 90-92. -/
noncomputable def scan (last T : Int) : List SensorMeasurement → Option (Option (List SensorMeasurement))
  | [] => some none
  | m :: ms => do
    let d ← sub last m.ts
    if d ≥ T then scan last T ms else some (some (m :: ms))

/-- `pedometer.cpp` 85-87, 94-96. -/
noncomputable def sumMagn (l : List SensorMeasurement) : Option ℝ :=
  l.foldlM (fun sum m => do let a ← magnitude m.data.values; some (sum + a)) 0

/-- `pedometer.cpp` 77-109. -/
noncomputable def filteredMagnitude (accel : List SensorMeasurement) : Option (Option Magnitude) :=
  match accel.getLast? with
  | none => some none
  | some last => do
    let aver? ← scan last.ts AVERAGING_TIME_INTERVAL_MS accel
    let filt? ← scan last.ts FILTER_TIME_INTERVAL_MS accel
    match aver?, filt? with
    | some aver, some filt =>
      if aver.length = 0 ∨ filt.length = 0 then some (some ⟨0, 0⟩)
      else do
        let sumF ← sumMagn filt
        let sumA ← sumMagn aver
        let filterMagnitude ← div sumF filt.length
        let averMagnitude ← div (sumA + filterMagnitude) aver.length
        some (some ⟨last.ts, filterMagnitude - averMagnitude⟩)
    | _, _ => some none

/-- `pedometer.cpp` 52-56, 158-159. -/
noncomputable def popOld {α : Type} (ts : α → Int) (limit : Int) : List α → Option (Option (List α))
  | [] => some none
  | a :: l => do
    let d ← sub (ts ((a :: l).getLast (by simp))) (ts a)
    if d > limit then popOld ts limit l else some (some (a :: l))

/-- `pedometer.cpp` 47-56. -/
noncomputable def push (s : PedoState) (msr : SensorMeasurement) : Option (Option PedoState) :=
  let accel := s.accel ++ [msr]
  bind2 (filteredMagnitude accel) (fun magn =>
    let mags := if magn.ts ≠ 0 then s.mags ++ [magn] else s.mags
    bind2 (popOld Stamped.ts (2 * AVERAGING_TIME_INTERVAL_MS) accel) (fun accel =>
      some (some { s with accel := accel, mags := mags })))

/-- `pedometer.cpp` 41-70: `update`. -/
noncomputable def updatePedometer (s : PedoState) (msr : SensorMeasurement) : Option (Option PedoState) :=
  let s := { s with magSize := max s.mags.length 1 }
  if msr.data.type = SensorType.ACCELEROMETER then push s msr else some (some s)

/-- `pedometer.cpp` 170-173. -/
noncomputable def leftBorder (mags : List Magnitude) (rightTs T : Int) : ℕ → Option (Option ℕ)
  | 0 => some (some 0)
  | n + 1 =>
    match mags[n + 1]? with
    | none => some none
    | some m => do
      let d ← sub rightTs m.ts
      if d ≤ T then leftBorder mags rightTs T n else some (some (n + 1))

/-- `pedometer.cpp` 167-185. -/
noncomputable def stepLength (mags : List Magnitude) (T : Int) (right : ℕ) : Option (Option ℝ) :=
  match mags[right]? with
  | none => some none
  | some r =>
    bind2 (leftBorder mags r.ts T right) (fun left => do
      let range := (mags.drop left).take (right - left)
      let r1 ← sqrt (Pedo.maxElement r range - Pedo.minElement r range)
      let r2 ← sqrt r1
      some (some (STEP_LENGTH_CONST * r2)))

/-- `pedometer.cpp` 117-125: the sum is kept in an `int`. -/
noncomputable def timeBetweenSteps (times : List Int) : Option ℝ := do
  let nSteps : ℕ := max times.length 1
  let sum ← if nSteps ≥ MINIMAL_NUMBER_OF_STEPS then times.foldlM (fun s t => narrow (s + t)) 0 else some 0
  let averageStepTime : Int := sum.tdiv nSteps
  some (max (1.0 * (MIN_TIME_BETWEEN_STEPS_MS : ℝ)) (0.6 * (averageStepTime : ℝ)))

/-- `pedometer.cpp` 127-156. -/
noncomputable def stepBody (between : ℝ) (i : ℕ) (st : PedoState × List Step) :
    Option (Option (PedoState × List Step)) :=
  let s := st.1
  let steps := st.2
  if i = 0 then some none
  else
    match s.mags[i]?, s.mags[i - 1]? with
    | some curAcc, some prevAcc => do
      let since ← sub curAcc.ts s.possibleTs
      let s := if s.isStep = false ∧ prevAcc.value < MINIMAL_THRESHOLD_VALUE ∧
            curAcc.value > MINIMAL_THRESHOLD_VALUE ∧ since > MIN_TIME_BETWEEN_STEPS_MS ∧ between > 0
          then { s with isStep := true, possibleTs := curAcc.ts } else s
      if s.isStep = true then
        bind2 (stepLength s.mags UPDATE_TIME_INTERVAL_MS i) (fun stepLength => do
          let d ← sub s.possibleTs s.stepTime
          let times := if d < MAX_STEP_TIME then s.times ++ [d] else s.times
          some (some ({ s with times := times, stepTime := s.possibleTs, isStep := false },
            steps ++ [⟨s.possibleTs, stepLength⟩])))
      else some (some (s, steps))
    | _, _ => some none

/-- `pedometer.cpp` 127. -/
noncomputable def stepLoop (between : ℝ) : ℕ → ℕ → PedoState × List Step → Option (Option (PedoState × List Step))
  | _, 0, st => some (some st)
  | i, n + 1, st => bind2 (stepBody between i st) (stepLoop between (i + 1) n)

/-- `pedometer.cpp` 111-165: `calculateSteps`. -/
noncomputable def steps (s : PedoState) : Option (Option (PedoState × List Step)) :=
  if s.mags.length ≤ 3 then some (some (s, []))
  else do
    let between ← timeBetweenSteps s.times
    bind2 (stepLoop between s.magSize (s.mags.length - s.magSize) (s, [])) (fun r =>
      bind2 (popOld Magnitude.ts (2 * UPDATE_TIME_INTERVAL_MS) r.1.mags) (fun mags =>
        some (some ({ r.1 with mags := mags, times := trimTimes r.1.times }, r.2))))

/-! ## Complementary filter -/

/-- `vector3d.cpp` 29-35. -/
noncomputable def vnormalized (v : Vector3d) : Option Vector3d := do
  let m ← magnitude v
  if |m| > EPSILON then
    let x ← div v.x m
    let y ← div v.y m
    let z ← div v.z m
    some ⟨x, y, z⟩
  else some v

/-- `quaternion.cpp` 25-32. -/
noncomputable def qnormalized (q : Quat) : Option Quat := do
  let norm ← sqrt (q.w * q.w + q.x * q.x + q.y * q.y + q.z * q.z)
  if |norm| > EPSILON then
    let w ← div q.w norm
    let x ← div q.x norm
    let y ← div q.y norm
    let z ← div q.z norm
    some ⟨w, x, y, z⟩
  else some q

/-- `quaternion.cpp` 34-52. -/
noncomputable def toEuler (q : Quat) : Option (ℝ × ℝ × ℝ) := do
  let sinr := 2 * (q.w * q.x + q.y * q.z)
  let cosr := 1 - 2 * (q.x * q.x + q.y * q.y)
  let roll := atan2 sinr cosr
  let sinp := 2 * (q.w * q.y - q.z * q.x)
  let pitch ← if |sinp| ≥ 1 then some (if sinp < 0 then -(Real.pi / 2) else Real.pi / 2) else asin sinp
  let siny := 2 * (q.w * q.z + q.x * q.y)
  let cosy := 1 - 2 * (q.y * q.y + q.z * q.z)
  let yaw := atan2 siny cosy
  some (roll, pitch, yaw)

/-- `complementary_filter.cpp` 25-30. -/
noncomputable def updateQuaternion (q : Quat) (v : Vector3d) : Option Quat :=
  qnormalized (q.add ((q.mul (Quat.ofVec v)).scale 0.5))

/-- `complementary_filter.cpp` 35. -/
noncomputable def lpfAlpha (prevTs curTs : Int) : Option ℝ := do
  let d ← sub curTs prevTs
  let dt : ℝ := (d : ℝ) / 1000.0
  div 1.0 (1.0 + max dt 0.02)

/-- `complementary_filter.cpp` 32-41. -/
noncomputable def lowPassFilter (prev cur : SensorMeasurement) : Option SensorMeasurement := do
  let alpha ← lpfAlpha prev.ts cur.ts
  some ⟨⟨cur.data.type, vadd (vscale alpha prev.data.values) (vscale (1 - alpha) cur.data.values)⟩, cur.ts⟩

/-- `complementary_filter.cpp` 53-58. -/
noncomputable def fusedAzimuth (s : CfState) : Option ℝ := do
  let e ← toEuler s.q
  some (-e.2.2)

/-- `complementary_filter.cpp` 123-130. -/
noncomputable def updateUsingGyroscope (s : CfState) (m : SensorMeasurement) : Option CfState := do
  let d ← sub m.ts s.lastGyroTs
  let dt : ℝ := (d : ℝ) / 1000.0
  let omega := vadd (vscale dt m.data.values) (vscale dt s.integralError)
  let q ← updateQuaternion s.q omega
  some { s with lastGyroTs := m.ts, q := q }

/-- `complementary_filter.cpp` 132-141. -/
noncomputable def updateUsingAccelerometer (c : CfConfig) (s : CfState) (m : SensorMeasurement) : Option CfState := do
  let acc ← vnormalized m.data.values
  let error := cross acc (gravSensorFrame s.q)
  let rotation := vscale c.ka error
  let q ← updateQuaternion s.q rotation
  some { s with q := q, integralError := vadd s.integralError (integralTerm c error) }

/-- `complementary_filter.cpp` 143-159. -/
noncomputable def updateUsingMagnetometer (c : CfConfig) (s : CfState) (m : SensorMeasurement) : Option CfState := do
  let magn ← vnormalized m.data.values
  let len ← magnitude magn
  if len < CF_DOUBLE_EPSILON then some s
  else
    let g := ((s.q.mul (Quat.ofVec magn)).mul s.q.conj).toVec
    let horizontal ← sqrt (g.y * g.y + g.x * g.x)
    let magnGlobalFrame : Vector3d := ⟨0, horizontal, g.z⟩
    let magnSensorFrame := ((s.q.conj.mul (Quat.ofVec magnGlobalFrame)).mul s.q).toVec
    let error := cross magn magnSensorFrame
    let rotation := vscale c.km error
    let q ← updateQuaternion s.q rotation
    some { s with q := q, integralError := vadd s.integralError (integralTerm c error) }

/-- `complementary_filter.cpp` 161-174. -/
noncomputable def magneticAzimuth (q : Quat) (m : SensorMeasurement) : Option ℝ := do
  let e ← toEuler q
  let halfYaw := e.2.2 / 2
  let quatDifference ← qnormalized ⟨Real.sin halfYaw, 0, 0, Real.cos halfYaw⟩
  let quatZeroYaw := quatDifference.mul q
  let magnetometer ← vnormalized m.data.values
  let magnGlobalFrame := ((quatZeroYaw.mul (Quat.ofVec magnetometer)).mul quatZeroYaw.conj).toVec
  some (toMinusPiPi (Real.pi / 2 + atan2 magnGlobalFrame.y magnGlobalFrame.x))

/-- `complementary_filter.cpp` 79-112: `update`. -/
noncomputable def updateFilter (c : CfConfig) (s : CfState) (m : SensorMeasurement) : Option CfState := do
  let s ← match m.data.type with
    | .ACCELEROMETER => do
      let low ← lowPassFilter s.accelLowPassed m
      updateUsingAccelerometer c { s with accelLowPassed := low } m
    | .MAGNETOMETER => do
      let low ← lowPassFilter s.magnLowPassed m
      let s : CfState := { s with magnLowPassed := low }
      let s ← if s.lastGyroTs = -1 then updateUsingMagnetometer c s m else some s
      let a ← magneticAzimuth s.q m
      some { s with magneticAzimuth := a }
    | .GYROSCOPE => do
      let s := if s.lastGyroTs = -1 then { s with lastGyroTs := m.ts } else s
      let s ← updateUsingGyroscope s m
      let a ← fusedAzimuth s
      some { s with gyroHeading := a }
    | .ORIENTATION => some { s with deviceAzimuth := m.data.values.x, lastDeviceAzimuthTs := m.ts }
    | _ => some s
  some { s with currentTs := m.ts }

/-- `complementary_filter.cpp` 114-121. -/
noncomputable def isDeviceAzimuthOutdated (c : CfConfig) (s : CfState) : Option Bool := do
  let d ← sub s.currentTs s.lastDeviceAzimuthTs
  let dt : ℝ := (d : ℝ) / 1000.0
  some (if dt > c.lifetime ∨ s.lastDeviceAzimuthTs = -1 then true else false)

/-- `sensor_fusion.cpp` 17-53: `calculateDisplacement`. -/
noncomputable def displacement (c : FusionConfig) (s : FusionState) (m : SensorMeasurement) (tsMs : Int) :
    Option (Option (FusionState × MotionInfo)) :=
  bind2 (updatePedometer s.pedometer m) (fun ped =>
    bind2 (steps ped) (fun r => do
      let filter ← updateFilter c.cf s.filter m
      let azimuth ← fusedAzimuth filter
      let outdated ← isDeviceAzimuthOutdated c.cf filter
      let info : MotionInfo := { heading := -azimuth }
      let info := if c.useCalcAzimuth = true then
          { info with azimuth := filter.magneticAzimuth, isAzimuthValid := true }
        else if outdated = false then
          { info with azimuth := filter.deviceAzimuth, isAzimuthValid := true }
        else info
      let info := { info with gyroHeading := filter.gyroHeading, isStepDetected := !r.2.isEmpty }
      if info.isStepDetected = true then
        some (some (⟨filter, r.1, s.stepCounter + r.2.length, info.heading⟩,
          { info with
            deltaAngle := info.heading - s.prevHeading
            distance := r.2.foldl (fun sum st => sum + st.len) 0 * c.stepMultiplier
            lastMotionTs := tsMs
            stepCounter := s.stepCounter + r.2.length }))
      else some (some (⟨filter, r.1, s.stepCounter, s.prevHeading⟩, info))))

end Verif.Checked
