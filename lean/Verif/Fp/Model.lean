import Verif.Fusion.Model

/-!
# Floating point versions of the numeric kernels

The other models take `double` for ℝ. Here some kernels are modelled once more, operation by operation in the order of the code,
with a rounding after each operation. The rounding is a parameter; what is assumed of it is the standard model of IEEE 754
arithmetic (`Rounding`): the result of `+ - * /` and `sqrt` is the exact one with a relative error of at most `2⁻⁵³`, and an
absolute error of at most `2⁻¹⁰⁷⁵` where it is subnormal; it depends only on the exact result, and in a monotone way. `nearest` in
`Verif.Fp.Instance` is such a rounding. Overflow is outside the model, as are fused multiply-add and extended precision.
-/

namespace Verif.Fp

open Verif Verif.Pedo Verif.Fusion

/-- Half a unit in the last place of a `double`. -/
noncomputable def u : ℝ := 2 ^ (-53 : ℤ)

/-- Half of the smallest positive `double`. -/
noncomputable def tiny : ℝ := 2 ^ (-1075 : ℤ)

/-- A rounding to `double`: any monotone function with the error bound of IEEE 754 that keeps zero and the numbers that are
already rounded. -/
structure Rounding where
  rnd : ℝ → ℝ
  near : ∀ x, |rnd x - x| ≤ u * |x| + tiny
  mono : Monotone rnd
  zero : rnd 0 = 0
  idem : ∀ x, rnd (rnd x) = rnd x

variable (R : Rounding)

/-- `quaternion.cpp` 81-89, 111-114: the product. -/
noncomputable def mulF (q r : Quat) : Quat :=
  ⟨R.rnd (R.rnd (R.rnd (R.rnd (q.w * r.w) - R.rnd (q.x * r.x)) - R.rnd (q.y * r.y)) - R.rnd (q.z * r.z)),
   R.rnd (R.rnd (R.rnd (R.rnd (q.w * r.x) + R.rnd (q.x * r.w)) + R.rnd (q.y * r.z)) - R.rnd (q.z * r.y)),
   R.rnd (R.rnd (R.rnd (R.rnd (q.w * r.y) - R.rnd (q.x * r.z)) + R.rnd (q.y * r.w)) + R.rnd (q.z * r.x)),
   R.rnd (R.rnd (R.rnd (R.rnd (q.w * r.z) + R.rnd (q.x * r.y)) - R.rnd (q.y * r.x)) + R.rnd (q.z * r.w))⟩

/-- `quaternion.cpp` 72-79, 101-104: the multiple. -/
noncomputable def scaleF (q : Quat) (k : ℝ) : Quat := ⟨R.rnd (q.w * k), R.rnd (q.x * k), R.rnd (q.y * k), R.rnd (q.z * k)⟩

/-- `quaternion.cpp` 54-61, 91-94: the sum. -/
noncomputable def addF (p q : Quat) : Quat := ⟨R.rnd (p.w + q.w), R.rnd (p.x + q.x), R.rnd (p.y + q.y), R.rnd (p.z + q.z)⟩

/-- `quaternion.cpp` 27: the norm. -/
noncomputable def normF (q : Quat) : ℝ :=
  R.rnd (Real.sqrt (R.rnd (R.rnd (R.rnd (R.rnd (q.w * q.w) + R.rnd (q.x * q.x)) + R.rnd (q.y * q.y)) + R.rnd (q.z * q.z))))

/-- `quaternion.cpp` 25-32: `normalized`. -/
noncomputable def normalizedF (q : Quat) : Quat :=
  if |normF R q| > EPSILON then
    ⟨R.rnd (q.w ÷ normF R q), R.rnd (q.x ÷ normF R q), R.rnd (q.y ÷ normF R q), R.rnd (q.z ÷ normF R q)⟩
  else q

theorem normalizedF_div (q : Quat) : normalizedF R q =
    if |normF R q| > EPSILON then
      ⟨R.rnd (q.w / normF R q), R.rnd (q.x / normF R q), R.rnd (q.y / normF R q), R.rnd (q.z / normF R q)⟩
    else q := by
  unfold normalizedF
  split_ifs with h
  · have h0 : normF R q ≠ 0 := by
      intro h0; rw [h0, abs_zero] at h; exact absurd h (not_lt.mpr epsilon_pos.le)
    rw [divide_eq h0, divide_eq h0, divide_eq h0, divide_eq h0]
  · rfl

/-- `complementary_filter.cpp` 25-30: `updateQuaternion`. -/
noncomputable def updateF (q : Quat) (v : Vector3d) : Quat :=
  normalizedF R (addF R q (scaleF R (mulF R q (Quat.ofVec v)) 0.5))

/-! ## The complementary filter -/

/-- `vector3d.cpp` 24-27: `magnitude`. -/
noncomputable def magnitudeF (v : Vector3d) : ℝ :=
  R.rnd (Real.sqrt (R.rnd (R.rnd (R.rnd (v.x * v.x) + R.rnd (v.y * v.y)) + R.rnd (v.z * v.z))))

/-- `vector3d.cpp` 29-35: `normalized`. -/
noncomputable def vnormalizedF (v : Vector3d) : Vector3d :=
  if |magnitudeF R v| > EPSILON then
    ⟨R.rnd (v.x ÷ magnitudeF R v), R.rnd (v.y ÷ magnitudeF R v), R.rnd (v.z ÷ magnitudeF R v)⟩
  else v

/-- `vector3d.cpp` 73-79, `vector3d.h`: the multiple of a vector. -/
noncomputable def vscaleF (k : ℝ) (v : Vector3d) : Vector3d := ⟨R.rnd (v.x * k), R.rnd (v.y * k), R.rnd (v.z * k)⟩

/-- `vector3d.cpp` 57-63, `vector3d.h`: the sum of vectors. -/
noncomputable def vaddF (a b : Vector3d) : Vector3d := ⟨R.rnd (a.x + b.x), R.rnd (a.y + b.y), R.rnd (a.z + b.z)⟩

/-- `vector3d.cpp` 96-101: `crossProduct`. -/
noncomputable def crossF (a b : Vector3d) : Vector3d :=
  ⟨R.rnd (R.rnd (a.y * b.z) - R.rnd (a.z * b.y)), R.rnd (R.rnd (a.z * b.x) - R.rnd (a.x * b.z)),
   R.rnd (R.rnd (a.x * b.y) - R.rnd (a.y * b.x))⟩

/-- `complementary_filter.h` 61-76: the members the orientation depends on. -/
structure FState where
  lastGyroTs : Int
  integralError : Vector3d
  q : Quat

/-- `complementary_filter.h` 61-76: their initial values. -/
def fInit : FState := ⟨-1, ⟨0, 0, 0⟩, Quat.one⟩

/-- `complementary_filter.cpp` 125: the time since the last gyroscope message, with the conversion from `long long`. -/
noncomputable def dtF (a b : Int) : ℝ := R.rnd (R.rnd ((a - b : Int) : ℝ) / 1000.0)

/-- `complementary_filter.cpp` 123-130: `updateUsingGyroscope`. -/
noncomputable def gyroF (s : FState) (m : SensorMeasurement) : FState :=
  let dt := dtF R m.ts s.lastGyroTs
  let omega := vaddF R (vscaleF R dt m.data.values) (vscaleF R dt s.integralError)
  { s with lastGyroTs := m.ts, q := updateF R s.q omega }

/-- `complementary_filter.cpp` 140, 158: the new integral error. -/
noncomputable def integralF (c : CfConfig) (old error : Vector3d) : Vector3d :=
  vaddF R old (if c.ki > CF_DOUBLE_EPSILON then vscaleF R c.ki error else ⟨0, 0, 0⟩)

/-- `complementary_filter.cpp` 135: the direction of gravity in the frame of the device. -/
noncomputable def gravF (q : Quat) : Vector3d := (mulF R (mulF R q.conj ⟨0, 0, 0, 1⟩) q).toVec

/-- `complementary_filter.cpp` 132-141: `updateUsingAccelerometer`. -/
noncomputable def accelF (c : CfConfig) (s : FState) (m : SensorMeasurement) : FState :=
  let acc := vnormalizedF R m.data.values
  let error := crossF R acc (gravF R s.q)
  let rotation := vscaleF R c.ka error
  { s with q := updateF R s.q rotation, integralError := integralF R c s.integralError error }

/-- `complementary_filter.cpp` 143-159: `updateUsingMagnetometer`. -/
noncomputable def magnF (c : CfConfig) (s : FState) (m : SensorMeasurement) : FState :=
  let magn := vnormalizedF R m.data.values
  if magnitudeF R magn < CF_DOUBLE_EPSILON then s
  else
    let g := (mulF R (mulF R s.q (Quat.ofVec magn)) s.q.conj).toVec
    let magnGlobalFrame : Vector3d := ⟨0, R.rnd (Real.sqrt (R.rnd (R.rnd (g.y * g.y) + R.rnd (g.x * g.x)))), g.z⟩
    let magnSensorFrame := (mulF R (mulF R s.q.conj (Quat.ofVec magnGlobalFrame)) s.q).toVec
    let error := crossF R magn magnSensorFrame
    let rotation := vscaleF R c.km error
    { s with q := updateF R s.q rotation, integralError := integralF R c s.integralError error }

/-- `complementary_filter.cpp` 79-112: `update`, as far as the orientation depends on it: the low-passed vectors, the magnetic
azimuth, the gyroscope heading and the device azimuth are left out. -/
noncomputable def fUpdate (c : CfConfig) (s : FState) (m : SensorMeasurement) : FState :=
  match m.data.type with
  | .ACCELEROMETER => accelF R c s m
  | .MAGNETOMETER => if s.lastGyroTs = -1 then magnF R c s m else s
  | .GYROSCOPE => gyroF R (if s.lastGyroTs = -1 then { s with lastGyroTs := m.ts } else s) m
  | _ => s

/-- The filter after a sequence of measurements. -/
noncomputable def fRun (c : CfConfig) (ms : List SensorMeasurement) : FState := ms.foldl (fUpdate R c) fInit

end Verif.Fp
