import Verif.Fusion.Spec
import Mathlib.Analysis.SpecialFunctions.Trigonometric.Arctan

/-!
# Specification vocabulary for the orientation of the device
-/

namespace Verif.Fusion

open Verif

/-- The scalar product. -/
def dot (a b : Vector3d) : ℝ := a.x * b.x + a.y * b.y + a.z * b.z

/-- A vector given in the frame of the device, seen in the world: the rotation matrix of the unit
quaternion `q`. -/
def toWorld (q : Quat) (v : Vector3d) : Vector3d :=
  ⟨(1 - 2 * (q.y ^ 2 + q.z ^ 2)) * v.x + 2 * (q.x * q.y - q.w * q.z) * v.y + 2 * (q.x * q.z + q.w * q.y) * v.z,
   2 * (q.x * q.y + q.w * q.z) * v.x + (1 - 2 * (q.x ^ 2 + q.z ^ 2)) * v.y + 2 * (q.y * q.z - q.w * q.x) * v.z,
   2 * (q.x * q.z - q.w * q.y) * v.x + 2 * (q.y * q.z + q.w * q.x) * v.y + (1 - 2 * (q.x ^ 2 + q.y ^ 2)) * v.z⟩

/-- A vector given in the world, seen in the frame of the device: the transposed matrix. -/
def toDevice (q : Quat) (v : Vector3d) : Vector3d :=
  ⟨(1 - 2 * (q.y ^ 2 + q.z ^ 2)) * v.x + 2 * (q.x * q.y + q.w * q.z) * v.y + 2 * (q.x * q.z - q.w * q.y) * v.z,
   2 * (q.x * q.y - q.w * q.z) * v.x + (1 - 2 * (q.x ^ 2 + q.z ^ 2)) * v.y + 2 * (q.y * q.z + q.w * q.x) * v.z,
   2 * (q.x * q.z + q.w * q.y) * v.x + 2 * (q.y * q.z - q.w * q.x) * v.y + (1 - 2 * (q.x ^ 2 + q.y ^ 2)) * v.z⟩

/-- The rotation by the angle `α` about the unit vector `n`, counter-clockwise seen from its tip
(formula of Rodrigues). -/
noncomputable def rotateAbout (n : Vector3d) (α : ℝ) (v : Vector3d) : Vector3d :=
  ⟨Real.cos α * v.x + Real.sin α * (n.y * v.z - n.z * v.y) + (1 - Real.cos α) * dot n v * n.x,
   Real.cos α * v.y + Real.sin α * (n.z * v.x - n.x * v.z) + (1 - Real.cos α) * dot n v * n.y,
   Real.cos α * v.z + Real.sin α * (n.x * v.y - n.y * v.x) + (1 - Real.cos α) * dot n v * n.z⟩

/-- The upward vertical of the world. -/
def vertical : Vector3d := ⟨0, 0, 1⟩

/-- The cosine of the angle between the direction `a`, in the frame of the device, and what the
orientation `q` holds for the vertical. -/
def alignment (q : Quat) (a : Vector3d) : ℝ := dot a (toDevice q vertical)

/-- The direction of a measured vector. -/
noncomputable def direction (v : Vector3d) : Vector3d :=
  ⟨v.x / Pedo.magnitude v, v.y / Pedo.magnitude v, v.z / Pedo.magnitude v⟩

/-- The angle by which one gyroscope sample of rate `ω` turns the orientation in `ms` milliseconds. -/
noncomputable def turn (ω : ℝ) (ms : Int) : ℝ := 2 * Real.arctan (ω * (ms / 1000) / 2)

/-- The sum of the turns of a sequence of gyroscope samples about the vertical, each from the time of the
one before it. -/
noncomputable def totalTurn : Int → List SensorMeasurement → ℝ
  | _, [] => 0
  | t, m :: ms => turn m.data.values.z (m.ts - t) + totalTurn m.ts ms

end Verif.Fusion
