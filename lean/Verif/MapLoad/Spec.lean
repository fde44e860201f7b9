import Verif.MapLoad.Model

/-!
# Specification vocabulary for the graph loader
-/

namespace Verif.MapLoad

open Verif.Geo (GeoPoint)
open Verif.NavGraph (Graph)

/-- `q` is closer than ten centimetres to `p`, as measured by `getGeoDist`. -/
def SamePlace (q p : GeoPoint) : Prop := ∃ d, getGeoDist q p = some d ∧ d < 1 / 10

/-- A coordinate array of the file that starts with the longitude and the latitude of `p`. -/
def Coord (c : List ℝ) (p : GeoPoint) : Prop := ∃ rest, c = p.longitude :: p.latitude :: rest

/-- The file draws a line that starts at `p` and whose second point is `q`. -/
def Drawn (lines : List (List (List ℝ))) (p q : GeoPoint) : Prop :=
  ∃ l ∈ lines, ∃ c d rest, l = c :: d :: rest ∧ Coord c p ∧ Coord d q

/-- `p` is mentioned in the file. -/
def Mentioned (lines : List (List (List ℝ))) (p : GeoPoint) : Prop :=
  ∃ l ∈ lines, ∃ c ∈ l, Coord c p

/-- The graph has a vertex with id `i` at `p`. -/
def VertexAt (g : Graph GeoPoint) (i : Int) (p : GeoPoint) : Prop :=
  ∃ v ∈ g.vertices, v.id = i ∧ v.point = p

/-- The graph has an edge between the ids `i` and `j`. -/
def EdgeBetween (g : Graph GeoPoint) (i j : Int) : Prop :=
  toLex (i, j) ∈ g.edges ∨ toLex (j, i) ∈ g.edges

/-- Some vertex at `p` is joined to some vertex at `q`. -/
def PointsJoined (g : Graph GeoPoint) (p q : GeoPoint) : Prop :=
  ∃ i j, VertexAt g i p ∧ VertexAt g j q ∧ EdgeBetween g i j

end Verif.MapLoad
