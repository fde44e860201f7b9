import Verif.Nav.Spec
import Verif.Nav.ZoneSpec
import Verif.NavGraph.Spec
import Verif.Geometry.Spec

/-!
# Specification for C134: what the projection onto the graph changes
-/

namespace Verif.Project

open Verif Verif.Levels Verif.Nav
open Verif.Geo (XYPoint)

/-- The same settings with the projection onto the graph, for places nearer than `D` metres. -/
noncomputable def onto (D : ℝ) (cs : CommonSettings) : CommonSettings := { cs with useGraphProjection := true, graphProjDist := D }

/-- How the place `p` is shown on the floor: moved into the bounding box, then rounded down to centimetres. -/
noncomputable def shown (u : Level) (p : XYPoint) : XYPoint :=
  ⟨downToCm (min (max p.x u.geometry.boundingBox.minCorner.x) u.geometry.boundingBox.maxCorner.x),
    downToCm (min (max p.y u.geometry.boundingBox.minCorner.y) u.geometry.boundingBox.maxCorner.y)⟩

/-- The graph of the floor, drawn by the calls `ops`, draws the place `p` to the place `q`: `q` is a place of the graph nearer than
`D`, and no place of the graph is nearer by more than a tenth of a millimetre; or `q` is `p`, and no place of the graph is nearer than
`D` (again up to a tenth of a millimetre). -/
def DrawnBy (ops : List (NavGraph.Op XYPoint)) (D : ℝ) (p q : XYPoint) : Prop :=
  (NavGraph.OnGraph ops q ∧ Geometry.dist p q < D ∧ ∀ g, NavGraph.OnGraph ops g → Geometry.dist p q ≤ Geometry.dist p g + 1e-4) ∨
    (q = p ∧ ∀ g, NavGraph.OnGraph ops g → D ≤ Geometry.dist p g + 1e-4)

/-- However the graph of the floor was drawn. -/
def Drawn (u : Level) (D : ℝ) (p q : XYPoint) : Prop := ∀ ops, u.graph = NavGraph.run ops → DrawnBy ops D p q

/-- An answer without the projection, and with it: they differ at most in latitude and longitude.  If there is a place, then it is a
satellite place outside all floors, the same in both, or it is shown on a floor: without projection the place `p`, with projection the
place to which the graph of that floor draws it. -/
structure Beside (ls : List Level) (D : ℝ) (o o' : Output × DebugState) : Prop where
  debug : o'.2 = o.2
  same : o'.1 = { o.1 with posLatitude := o'.1.posLatitude, posLongitude := o'.1.posLongitude }
  blank : o.1.status ≠ .OK → o'.1 = o.1
  place : o.1.status = .OK → ∃ l ∈ ls, o.1.posLevel = l.id ∧ ∃ a b : XYPoint,
    Geo.localToGps a l.bindingPoint = ⟨o.1.posLatitude, o.1.posLongitude⟩ ∧
    Geo.localToGps b l.bindingPoint = ⟨o'.1.posLatitude, o'.1.posLongitude⟩ ∧
    ((o.1.provider = some .GNSS ∧ b = a) ∨ ∃ u ∈ ls, ∃ p q, a = shown u p ∧ b = shown u q ∧ Drawn u D p q)

end Verif.Project
