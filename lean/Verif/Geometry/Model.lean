import Verif.Geo.Model
import Verif.Arith

/-!
# Model of `src/geometry.cpp`

`double` is `ℝ`; a function that answers `NAN` on purpose returns `Option`, `none` standing for NaN.
-/

namespace Verif.Geometry

open Verif.Geo (XYPoint)

/-- `src/geometry.h` 15: `GEOMETRY_DOUBLE_EPSILON`. -/
noncomputable def eps : ℝ := 1e-8

/-- `include/navigine/navigation-core/location_point.h`: `struct LocationPoint`. -/
structure LocationPoint where
  level : String
  x : ℝ
  y : ℝ

/-- `src/geometry.cpp` 8-11: `GetDist(ax, ay, bx, by)`. -/
noncomputable def getDist (ax ay bx by' : ℝ) : ℝ :=
  Real.sqrt ((ax - bx) * (ax - bx) + (ay - by') * (ay - by'))

/-- `src/geometry.cpp` 14-17: `GetDist(A, B)`, NaN across levels. -/
noncomputable def getDistLP (A B : LocationPoint) : Option ℝ :=
  if A.level = B.level then some (getDist A.x A.y B.x B.y) else none

/-- `src/geometry.cpp` 20-41: `SegmentPointDist`. -/
noncomputable def segmentPointDist (p1 p2 p : XYPoint) : ℝ :=
  let v1x := p.x - p1.x
  let v1y := p.y - p1.y
  let v2x := p2.x - p1.x
  let v2y := p2.y - p1.y
  let len := v2x * v2x + v2y * v2y
  if len < eps then getDist p1.x p1.y p.x p.y
  else
    let t := (v1x * v2x + v1y * v2y) ÷ len
    let t := min (max t 0) 1
    let sx := p1.x + t * (p2.x - p1.x)
    let sy := p1.y + t * (p2.y - p1.y)
    Real.sqrt ((sx - p.x) * (sx - p.x) + (sy - p.y) * (sy - p.y))

/-- `src/geometry.cpp` 44-51: distance from `C` to the line `(AB)`. -/
noncomputable def getDistToLine (A B C : LocationPoint) : Option ℝ :=
  if A.level ≠ B.level ∨ A.level ≠ C.level then none
  else
    match getDistLP A B with
    | none => none  -- NaN >= eps is false
    | some d =>
      if d ≥ eps then some (|(B.x - A.x) * (C.y - A.y) - (C.x - A.x) * (B.y - A.y)| ÷ d) else none

/-- `src/geometry.cpp` 74-78: 2x2 determinant. -/
def det2 (a11 a12 a21 a22 : ℝ) : ℝ := a11 * a22 - a12 * a21

/-- `src/geometry.cpp` 84-90: 3x3 determinant. -/
def det3 (a11 a12 a13 a21 a22 a23 a31 a32 a33 : ℝ) : ℝ :=
  (a11 * a22 * a33 + a12 * a23 * a31 + a21 * a32 * a13) -
    (a21 * a12 * a33 + a11 * a23 * a32 + a13 * a22 * a31)

/-- `src/geometry.cpp` 64-69: oriented area of a triangle. -/
noncomputable def getArea (ax ay bx by' cx cy : ℝ) : ℝ :=
  det2 (ax - bx) (ay - by') (ax - cx) (ay - cy) / 2

/-- `src/geometry.cpp` 54-61: oriented area, NaN across levels. -/
noncomputable def getAreaLP (A B C : LocationPoint) : Option ℝ :=
  if A.level ≠ B.level ∨ A.level ≠ C.level then none
  else some (getArea A.x A.y B.x B.y C.x C.y)

/-- `src/geometry.cpp` 93-108: `GetProjection`; the returned `k` and the point written through
`px`, `py`. -/
noncomputable def getProjection (ax ay bx by' ox oy : ℝ) : ℝ × XYPoint :=
  let ab := (bx - ax) * (bx - ax) + (by' - ay) * (by' - ay)
  let ao := (ox - ax) * (bx - ax) + (oy - ay) * (by' - ay)
  let k := if ab > eps then ao ÷ ab else 0
  (k, ⟨ax + k * (bx - ax), ay + k * (by' - ay)⟩)

/-- `src/geometry.cpp` 110-136: `GetIntersection`; `none` is NaN (outputs then not written). -/
noncomputable def getIntersection (px py qx qy ax ay bx by' : ℝ) : Option (ℝ × XYPoint) :=
  let pqx := qx - px
  let pqy := qy - py
  let abx := bx - ax
  let aby := by' - ay
  let pax := ax - px
  let pay := ay - py
  let det := det2 pqx abx pqy aby
  if |det| < eps then none
  else
    let k := det2 pax abx pay aby ÷ det
    let l := -det2 pqx pax pqy pay ÷ det
    if k < 0 ∨ k > 1 ∨ l < 0 ∨ l > 1 then none
    else some (k, ⟨px + k * pqx, py + k * pqy⟩)

/-- `src/geometry.cpp` 144-149: the lambda `boundBoxCheck`. -/
noncomputable def boundBoxCheck (a b c d : ℝ) : Prop :=
  max (if a > b then b else a) (if c > d then d else c) <
    min (if a > b then a else b) (if c > d then c else d)

/-- `src/geometry.cpp` 139-154: `CheckIntersection` (the boolean result as a proposition). -/
noncomputable def checkIntersection (ax ay bx by' cx cy dx dy : ℝ) : Prop :=
  boundBoxCheck ax bx cx dx ∧ boundBoxCheck ay by' cy dy ∧
    getArea ax ay bx by' cx cy * getArea ax ay bx by' dx dy < 0 ∧
    getArea cx cy dx dy ax ay * getArea cx cy dx dy bx by' < 0

/-- `src/geometry.cpp` 156-165: `PointOnLine`. -/
noncomputable def pointOnLine (x y x1 y1 x2 y2 : ℝ) : Prop :=
  let Ax := x1 - x
  let Ay := y1 - y
  let Bx := x2 - x
  let By := y2 - y
  |Ax * By - Ay * Bx| < eps ∧ Ax * Bx + Ay * By < eps

/-- `src/geometry.cpp` 171-175: an end point at the height of the ray is lifted by
`DELTA = sqrt(eps)`. -/
noncomputable def liftEnd (y yi : ℝ) : ℝ := if |y - yi| < eps then yi + Real.sqrt eps else yi

/-- `src/geometry.cpp` 167-184: `XRayIntersectsLine`. -/
noncomputable def xRayIntersectsLine (x y x1 y1 x2 y2 : ℝ) : Prop :=
  let y1 := liftEnd y y1
  let y2 := liftEnd y y2
  if y1 < y ∧ y < y2 then det3 x2 y2 1 x y 1 x1 y1 1 + eps > 0
  else if y2 < y ∧ y < y1 then det3 x1 y1 1 x y 1 x2 y2 1 + eps > 0
  else False

end Verif.Geometry
