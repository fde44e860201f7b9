import Verif.Fusion.Model

/-!
# Model of the public vector type: `include/navigine/navigation-core/vector3d.h`, `src/vector3d.cpp`

`magnitude`, `normalized`, `crossProduct`, `operator*` and the binary `operator+` are in `Pedo/Model` and
`Fusion/Model`.  The operators that change the vector return its new value here.  Division by zero gives infinite
or undefined components; it is `none`.
-/

namespace Verif.Vec

open Verif Verif.Pedo Verif.Fusion

/-- `vector3d.cpp` 15. -/
noncomputable def DOUBLE_EPSILON : ℝ := 1e-8

/-- `vector3d.cpp` 87-93: `operator/=`. -/
noncomputable def divAssign (v : Vector3d) (divisor : ℝ) : Option Vector3d :=
  if divisor = 0 then none else some ⟨v.x / divisor, v.y / divisor, v.z / divisor⟩

/-- `vector3d.cpp` 37-44: `normalize`. -/
noncomputable def normalize (v : Vector3d) : Option Vector3d :=
  let length := magnitude v
  if |length| > EPSILON then divAssign v length else some v

/-- `vector3d.cpp` 46-49: `isNull`. -/
def isNull (v : Vector3d) : Prop := v.x = 0 ∧ v.y = 0 ∧ v.z = 0

/-- `vector3d.cpp` 51-56: `operator==`. -/
def equal (a b : Vector3d) : Prop :=
  |a.x - b.x| < DOUBLE_EPSILON ∧ |a.y - b.y| < DOUBLE_EPSILON ∧ |a.z - b.z| < DOUBLE_EPSILON

/-- `vector3d.cpp` 58-61: `operator!=`. -/
def notEqual (a b : Vector3d) : Prop := ¬ equal a b

/-- `vector3d.cpp` 63-69: `operator+=`. -/
noncomputable def addAssign (a b : Vector3d) : Vector3d := ⟨a.x + b.x, a.y + b.y, a.z + b.z⟩

/-- `vector3d.cpp` 71-77: `operator-=`. -/
noncomputable def subAssign (a b : Vector3d) : Vector3d := ⟨a.x - b.x, a.y - b.y, a.z - b.z⟩

/-- `vector3d.cpp` 79-85: `operator*=`. -/
noncomputable def mulAssign (a : Vector3d) (multiplier : ℝ) : Vector3d :=
  ⟨a.x * multiplier, a.y * multiplier, a.z * multiplier⟩

/-- `vector3d.cpp` 95-98: `dotProduct`. -/
noncomputable def dotProduct (a b : Vector3d) : ℝ := a.x * b.x + a.y * b.y + a.z * b.z

/-- `vector3d.h` 57-60: the binary `operator-`. -/
noncomputable def vsub (a b : Vector3d) : Vector3d := ⟨a.x - b.x, a.y - b.y, a.z - b.z⟩

/-- `vector3d.h` 62-65: the unary `operator-`. -/
noncomputable def vneg (v : Vector3d) : Vector3d := ⟨-v.x, -v.y, -v.z⟩

/-- `vector3d.h` 67-70: `operator/`. -/
noncomputable def vdiv (v : Vector3d) (divisor : ℝ) : Option Vector3d :=
  if divisor = 0 then none else some ⟨v.x / divisor, v.y / divisor, v.z / divisor⟩

end Verif.Vec
