import Verif.Geo.Model

/-!
# Specification vocabulary for planar geometry (independent of the code)
-/

namespace Verif.Geometry

open Verif.Geo (XYPoint)

/-- Squared Euclidean distance. -/
def sqDist (a b : XYPoint) : ℝ := (a.x - b.x) ^ 2 + (a.y - b.y) ^ 2

/-- Euclidean distance. -/
noncomputable def dist (a b : XYPoint) : ℝ := Real.sqrt (sqDist a b)

/-- The point `(1 - t) a + t b`. -/
def along (a b : XYPoint) (t : ℝ) : XYPoint := ⟨(1 - t) * a.x + t * b.x, (1 - t) * a.y + t * b.y⟩

/-- `q` lies on the closed segment from `a` to `b`. -/
def OnSegment (a b q : XYPoint) : Prop := ∃ t : ℝ, 0 ≤ t ∧ t ≤ 1 ∧ q = along a b t

/-- `q` lies on the line through `a` and `b`. -/
def OnLine (a b q : XYPoint) : Prop := ∃ t : ℝ, q = along a b t

/-- The open segments `ab` and `cd` cross properly: they are not parallel and share an inner point. -/
def CrossProperly (a b c d : XYPoint) : Prop :=
  (b.x - a.x) * (d.y - c.y) - (b.y - a.y) * (d.x - c.x) ≠ 0 ∧
  ∃ s t : ℝ, 0 < s ∧ s < 1 ∧ 0 < t ∧ t < 1 ∧ along a b s = along c d t

end Verif.Geometry
