import Verif.StdMap
import Verif.Geo.Model
import Verif.NavGraph.Model
import Verif.Knn.Model
import Mathlib.Analysis.SpecialFunctions.Complex.Arg

/-!
# Model of the graph loader: `getGeoDist`, `removeSame`, `getVertex`, `parseGraph`
of `tools/verification/helpers.cpp`

The JSON document is represented by what the code reads from it: a graph feature is a list of
lines, a line a list of points, a point a list of numbers.  JSON type errors (exceptions of
nlohmann::json) are not modelled.  `assert` is modelled as absent (a release build); what it guards
is then undefined behaviour or ignored input, see `lineEnds`.  `std::unordered_map` iterates in an
unspecified order: the order is a parameter.
-/

namespace Verif.MapLoad

open Verif.Geo (GeoPoint)
open Verif.NavGraph (Graph Vertex)
open Verif.Knn (Result)

/-- `helpers.cpp` 17: `GRAPH_SAME_POINTS_GEO_DIST`. -/
noncomputable def sameDist : ℝ := 0.1

/-- `helpers.cpp` 333-347: `getGeoDist`.  `none` is NaN: the square root of a negative number
(possible only for latitudes outside ±90°). `atan2(y, x)` is the argument of `x + iy`. -/
noncomputable def getGeoDist (p1 p2 : GeoPoint) : Option ℝ :=
  let lat1 := Real.pi * p1.latitude / 180
  let lat2 := Real.pi * p2.latitude / 180
  let lng1 := Real.pi * p1.longitude / 180
  let lng2 := Real.pi * p2.longitude / 180
  let dlat := lat1 - lat2
  let dlng := lng1 - lng2
  let a := Real.sin (dlat / 2) ^ 2 + Real.cos lat1 * Real.cos lat2 * Real.sin (dlng / 2) ^ 2
  if 0 ≤ a ∧ 0 ≤ 1 - a then
    some (6378000 * (2 * Complex.arg ⟨Real.sqrt (1 - a), Real.sqrt a⟩))
  else none

/-- `helpers.cpp` 358, 375: the comparison `getGeoDist(q, p) < GRAPH_SAME_POINTS_GEO_DIST`
(false for NaN). -/
noncomputable def isSame (q p : GeoPoint) : Bool :=
  match getGeoDist q p with
  | some d => open Classical in decide (d < sameDist)
  | none => false

/-- The distance of a point to itself is `0`, so that `removeSame` removes at least one point. -/
theorem isSame_self (p : GeoPoint) : isSame p p = true := by
  have h1 : (⟨1, 0⟩ : ℂ).arg = 0 := Complex.arg_one
  simp only [isSame, getGeoDist, sameDist, sub_self, zero_div, Real.sin_zero, ne_eq,
    OfNat.ofNat_ne_zero, not_false_eq_true, zero_pow, mul_zero, add_zero, sub_zero, le_refl,
    zero_le_one, and_self, if_true, Real.sqrt_one, Real.sqrt_zero, h1]
  norm_num

/-- `helpers.cpp` 349-367: `removeSame` called with the points `p :: rest`: the points that stay. -/
noncomputable def removeSame (p : GeoPoint) (rest : List GeoPoint) : List GeoPoint :=
  (p :: rest).filter (fun q => !isSame q p)

theorem removeSame_length (p : GeoPoint) (rest : List GeoPoint) :
    (removeSame p rest).length < (p :: rest).length := by
  unfold removeSame
  rw [List.filter_cons_of_neg (by simp [isSame_self])]
  exact Nat.lt_succ_of_le (List.length_filter_le _ _)

/-- `helpers.cpp` 404-411: the loop over the remaining points; the list holds the points of the
vertices `1, 2, …` in this order. -/
noncomputable def mergedPoints : List GeoPoint → List GeoPoint
  | [] => []
  | p :: rest => p :: mergedPoints (removeSame p rest)
termination_by l => l.length
decreasing_by exact removeSame_length p rest

/-- `helpers.cpp` 404-411: `vertexMap`, in the order of insertion. -/
noncomputable def vertexMap (pts : List GeoPoint) : List (Int × GeoPoint) :=
  (mergedPoints pts).mapIdx (fun i p => ((i : Int) + 1, p))

/-- `helpers.cpp` 369-380: `getVertex`; the list is the map in iteration order, `none` the
`logic_error`. -/
noncomputable def getVertex (q : GeoPoint) : List (Int × GeoPoint) → Option Int
  | [] => none
  | (v, p) :: m => if isSame q p then some v else getVertex q m

/-- `helpers.cpp` 395-397: one coordinate array; GeoJSON stores longitude first.  `none`: `at`
throws. -/
def toPoint : List ℝ → Option GeoPoint
  | lon :: lat :: _ => some ⟨lat, lon⟩
  | _ => none

/-- `helpers.cpp` 414-427: one round of the loop over the lines that updates `adjset`. -/
def addLine (adj : List (Int × List Int)) (v1 v2 : Int) : List (Int × List Int) :=
  let adj1 := StdMap.set adj v1 (StdSet.insert v2 ((StdMap.find? adj v1).getD []))
  StdMap.set adj1 v2 (StdSet.insert v1 ((StdMap.find? adj1 v2).getD []))

/-- `helpers.cpp` 412-428: the loop over the lines.  A line with less than two points reads past
the end of a vector; further points of a longer line are ignored (both are excluded by the
`assert` of line 416 in a debug build). -/
noncomputable def adjacency (iter : List (Int × GeoPoint)) :
    List (Int × List Int) → List (List GeoPoint) → Result (List (Int × List Int))
  | adj, [] => .ok adj
  | adj, (p1 :: p2 :: _) :: ls =>
    match getVertex p1 iter, getVertex p2 iter with
    | some v1, some v2 => adjacency iter (addLine adj v1 v2) ls
    | _, _ => .throws
  | _, _ :: _ => .undefined

/-- `helpers.cpp` 430-431: the graph under construction and `addedVertices`. -/
structure Build where
  graph : Graph GeoPoint
  added : List (Int × Vertex GeoPoint)

/-- `helpers.cpp` 436, 443: `vertexMap[v]`; a missing key reads as a default point. -/
def pointOf (vm : List (Int × GeoPoint)) (v : Int) : GeoPoint := (StdMap.find? vm v).getD ⟨0, 0⟩

/-- `helpers.cpp` 439-453: one neighbour `v2` of the vertex with graph id `id1`. -/
def addNeighbour (vm : List (Int × GeoPoint)) (id1 : Int) (b : Build) (v2 : Int) :
    Except String Build :=
  match StdMap.find? b.added v2 with
  | none =>
    let r := NavGraph.addVertex b.graph (pointOf vm v2)
    match NavGraph.addEdge r.1 id1 r.2.id with
    | .ok g => .ok ⟨g, StdMap.insert b.added v2 r.2⟩
    | .error e => .error e
  | some w =>
    match NavGraph.addEdge b.graph id1 w.id with
    | .ok g => .ok ⟨g, b.added⟩
    | .error e => .error e

/-- `helpers.cpp` 439-453: the loop over the neighbours. -/
def addNeighbours (vm : List (Int × GeoPoint)) (id1 : Int) : Build → List Int → Except String Build
  | b, [] => .ok b
  | b, v2 :: vs =>
    match addNeighbour vm id1 b v2 with
    | .ok b' => addNeighbours vm id1 b' vs
    | .error e => .error e

/-- `helpers.cpp` 432-454: the loop over `adjset`. -/
def buildGraph (vm : List (Int × GeoPoint)) : Build → List (Int × List Int) → Except String Build
  | b, [] => .ok b
  | b, (v1, adj) :: rest =>
    let r := NavGraph.addVertex b.graph (pointOf vm v1)
    match addNeighbours vm r.2.id ⟨r.1, StdMap.insert b.added v1 r.2⟩ adj with
    | .ok b' => buildGraph vm b' rest
    | .error e => .error e

/-- `helpers.cpp` 388-402: reading the coordinates. -/
def readLines (lines : List (List (List ℝ))) : Option (List (List GeoPoint)) :=
  lines.mapM (fun l => l.mapM toPoint)

/-- `helpers.cpp` 382-456: `parseGraph` on the coordinates of a feature.  `order` is the order in
which the `unordered_map` is iterated. -/
noncomputable def parseGraph (order : List (Int × GeoPoint) → List (Int × GeoPoint))
    (lines : List (List (List ℝ))) : Result (Graph GeoPoint) :=
  match readLines lines with
  | none => .throws
  | some ls =>
    let vm := vertexMap ls.flatten
    match adjacency (order vm) [] ls with
    | .ok adj =>
      match buildGraph vm ⟨NavGraph.empty, []⟩ adj with
      | .ok b => .ok b.graph
      | .error _ => .throws
    | .throws => .throws
    | .undefined => .undefined

end Verif.MapLoad
