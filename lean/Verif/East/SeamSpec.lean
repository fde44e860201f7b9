import Verif.Levels.Lemmas
import Verif.Geo.Props

/-!
# Specification for C143: a building across the antimeridian
-/

namespace Verif.East

open Verif.Levels
open Verif.Geo (XYPoint GeoPoint ValidLon)

/-- The corners of the box have valid longitudes. -/
def ValidBox (b : Box) : Prop := ValidLon b.minCorner.y ∧ ValidLon b.maxCorner.y

/-- The shorter way between the two longitudes of the box crosses the antimeridian. -/
def Across (b : Box) : Prop := 180 < |b.maxCorner.y - b.minCorner.y|

open Classical in
/-- The place lies between the two latitudes and, the shorter way round, between the two longitudes. -/
def Between (b : Box) (p : GeoPoint) : Prop :=
  (min b.minCorner.x b.maxCorner.x ≤ p.latitude ∧ p.latitude ≤ max b.minCorner.x b.maxCorner.x) ∧
  if Across b then max b.minCorner.y b.maxCorner.y ≤ p.longitude ∨ p.longitude ≤ min b.minCorner.y b.maxCorner.y
  else min b.minCorner.y b.maxCorner.y ≤ p.longitude ∧ p.longitude ≤ max b.minCorner.y b.maxCorner.y

open Classical in
/-- The degrees between the two longitudes, the shorter way round. -/
noncomputable def degrees (b : Box) : ℝ :=
  if Across b then 360 - |b.maxCorner.y - b.minCorner.y| else |b.maxCorner.y - b.minCorner.y|

end Verif.East
