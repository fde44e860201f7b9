import Verif.StdMap
import Verif.Geometry.Model
import Mathlib.Data.Prod.Lex

/-!
# Model of `include/navigine/navigation-core/graph.h`, of `getGraphInLocalCoordinates`
(`src/level_collector.cpp`) and of the graph projection (`src/position_postprocessor`)
-/

namespace Verif.NavGraph

open Verif.Geo (XYPoint)
open Verif.Geometry (LocationPoint)

/-- `graph.h` 21-25: `struct Vertex`. -/
structure Vertex (P : Type*) where
  id : Int
  point : P

/-- `graph.h` 86-88: the data of a `Graph`; the `std::set` of edges is an ascending list of pairs,
compared lexicographically like `std::pair`. -/
structure Graph (P : Type*) where
  vertices : List (Vertex P)
  edges : List (Int ×ₗ Int)

variable {P Q : Type*}

/-- `graph.h` 32: the empty graph. -/
def empty : Graph P := ⟨[], []⟩

/-- `graph.h` 34-37: `hasVertex`. -/
def hasVertex (g : Graph P) (id : Int) : Bool := decide (0 ≤ id) && decide (id < (g.vertices.length : Int))

/-- `graph.h` 39-47: `vertex`, `getVertex`; `none` is the exception of `std::vector::at`
(a negative `int` becomes a huge index). -/
def getVertex (g : Graph P) (id : Int) : Option (Vertex P) :=
  if 0 ≤ id then g.vertices[id.toNat]? else none

/-- `graph.h` 69-74: `addVertex`. -/
def addVertex (g : Graph P) (p : P) : Graph P × Vertex P :=
  let v : Vertex P := ⟨(g.vertices.length : Int), p⟩
  ({ g with vertices := g.vertices ++ [v] }, v)

/-- `graph.h` 76-84: `addEdge`; `error` is `std::logic_error`. -/
def addEdge (g : Graph P) (v1 v2 : Int) : Except String (Graph P) :=
  if !hasVertex g v1 || !hasVertex g v2 then .error "vertex does not exist!"
  else
    let p : Int ×ₗ Int := if v1 < v2 then toLex (v1, v2) else toLex (v2, v1)
    .ok { g with edges := StdSet.insert p g.edges }

/-- One call of the public mutators of `Graph`. -/
inductive Op (P : Type*) where
  | addVertex (p : P)
  | addEdge (v1 v2 : Int)

/-- Effect of one call; a throwing `addEdge` leaves the object untouched (`graph.h` 78-80 throws
before the insertion). -/
def step (g : Graph P) : Op P → Graph P
  | .addVertex p => (addVertex g p).1
  | .addEdge a b => match addEdge g a b with
    | .ok g' => g'
    | .error _ => g

/-- A graph after a sequence of calls. -/
def run (ops : List (Op P)) : Graph P := ops.foldl step empty

/-- `src/level_collector.cpp` 100-106: the vertex loop with the id translation map. -/
def copyVertices (f : P → Q) (vs : List (Vertex P)) : Graph Q × List (Int × Int) :=
  vs.foldl (fun acc v =>
    let r := addVertex acc.1 (f v.point)
    (r.1, StdMap.set acc.2 v.id r.2.id)) (empty, [])

/-- `src/level_collector.cpp` 112-113: `map[id]`, a missing key reads as a fresh `0`
(and is inserted, which no later read can observe except as the same `0`). -/
def mapGet (m : List (Int × Int)) (k : Int) : Int := (StdMap.find? m k).getD 0

/-- `src/level_collector.cpp` 108-115: the edge loop; `at` and `addEdge` may throw. -/
def copyEdges (g : Graph P) (m : List (Int × Int)) (h : Graph Q) :
    List (Int ×ₗ Int) → Except String (Graph Q)
  | [] => .ok h
  | e :: es =>
    match getVertex g (ofLex e).1, getVertex g (ofLex e).2 with
    | some u, some v =>
      match addEdge h (mapGet m u.id) (mapGet m v.id) with
      | .ok h' => copyEdges g m h' es
      | .error s => .error s
    | _, _ => .error "out_of_range"

/-- `src/level_collector.cpp` 94-117: `getGraphInLocalCoordinates`, for any point conversion `f`
(the code uses `gpsToLocal(·, binding)`). -/
def convertGraph (f : P → Q) (g : Graph P) : Except String (Graph Q) :=
  let r := copyVertices f g.vertices
  copyEdges g r.2 r.1 g.edges

/-- `src/position_postprocessor/position_postprocessor.cpp` 129-138: nearest point of one edge. -/
noncomputable def edgeProjection (p : LocationPoint) (u v : XYPoint) : LocationPoint :=
  let r := Geometry.getProjection u.x u.y v.x v.y p.x p.y
  if r.1 < 0 then ⟨p.level, u.x, u.y⟩
  else if r.1 > 1 then ⟨p.level, v.x, v.y⟩
  else ⟨p.level, r.2.x, r.2.y⟩

/-- `src/position_postprocessor/position_postprocessor.cpp` 127-147: the loop over the edges with
the best point `P0` and its distance `d0` (`none` is the initial NaN).  The result is `none` when
`getVertex` throws. -/
noncomputable def projLoop (g : Graph XYPoint) (p : LocationPoint) :
    List (Int ×ₗ Int) → LocationPoint × Option ℝ → Option (LocationPoint × Option ℝ)
  | [], acc => some acc
  | e :: es, (p0, d0) =>
    match getVertex g (ofLex e).1, getVertex g (ofLex e).2 with
    | some u, some v =>
      let p1 := edgeProjection p u.point v.point
      -- `GetDist(P, P1)` compares points of the same level, hence never NaN here
      let d := Geometry.getDist p.x p.y p1.x p1.y
      match d0 with
      | none => projLoop g p es (p1, some d)
      | some d0' => if d < d0' then projLoop g p es (p1, some d) else projLoop g p es (p0, some d0')
    | _, _ => none

/-- `src/position_postprocessor/position_postprocessor.cpp` 121-150: `getProjection(graph, P)`. -/
noncomputable def projectOnGraph (g : Graph XYPoint) (p : LocationPoint) : Option LocationPoint :=
  (projLoop g p g.edges (p, none)).map Prod.fst

end Verif.NavGraph
