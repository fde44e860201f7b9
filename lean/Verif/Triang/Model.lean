import Verif.Geometry.Model
import Verif.Common
import Mathlib.Data.String.Basic

/-!
# Model of `src/triangulation.h` and `src/triangulation.cpp`
-/

namespace Verif.Triang

open Verif.Geometry (det3 eps)

/-- `triangulation.h` 14-29: `struct TriangleVertex`. -/
structure Vertex where
  x : ℝ
  y : ℝ
  id : String

/-- `triangulation.h` 19: `operator==` compares ids only. -/
def Vertex.eqv (a b : Vertex) : Bool := a.id == b.id

/-- `triangulation.h` 21: `operator<`. -/
def Vertex.lt (a b : Vertex) : Prop := a.x < b.x ∨ (a.x = b.x ∧ a.y < b.y)

/-- `triangulation.h` 31-54: `class TriangleEdge`. -/
structure Edge where
  b : Vertex
  e : Vertex

open Classical in
/-- `triangulation.h` 34-36: the constructor; `std::min(a, b)` is `b < a ? b : a`, `std::max(a, b)` is
`a < b ? b : a`. -/
noncomputable def mkEdge (a b : Vertex) : Edge :=
  ⟨if b.lt a then b else a, if a.lt b then b else a⟩

/-- `triangulation.h` 41-42. -/
noncomputable def Edge.length (e : Edge) : ℝ :=
  Real.sqrt ((e.b.x - e.e.x) * (e.b.x - e.e.x) + (e.b.y - e.e.y) * (e.b.y - e.e.y))

/-- `triangulation.h` 44. -/
def Edge.eqv (e f : Edge) : Bool := e.b.eqv f.b && e.e.eqv f.e

/-- `triangulation.h` 46: the order `std::sort` uses on edges. -/
def Edge.lt (e f : Edge) : Prop := e.b.lt f.b ∨ (e.b.eqv f.b = true ∧ e.e.lt f.e)

/-- `triangulation.h` 56-120: `class Triangle`. -/
structure Triangle where
  a : Vertex
  b : Vertex
  c : Vertex

/-- `triangulation.h` 80: the order `std::sort` uses on triangles. -/
def Triangle.lt (t u : Triangle) : Prop :=
  t.a.lt u.a ∨ (t.a.eqv u.a = true ∧ t.b.lt u.b) ∨ (t.a.eqv u.a = true ∧ t.b.eqv u.b = true ∧ t.c.lt u.c)

/-- `triangulation.h` 69. -/
noncomputable def Triangle.ab (t : Triangle) : Edge := mkEdge t.a t.b
/-- `triangulation.h` 72. -/
noncomputable def Triangle.bc (t : Triangle) : Edge := mkEdge t.b t.c
/-- `triangulation.h` 75, 76: `getAC` and `getCA`. -/
noncomputable def Triangle.ac (t : Triangle) : Edge := mkEdge t.a t.c

/-- `triangulation.h` 85-88. -/
noncomputable def Triangle.square (t : Triangle) : ℝ :=
  1 / 2 * |det3 t.a.x t.b.x t.c.x t.a.y t.b.y t.c.y 1 1 1|

open Classical in
/-- A quotient of `double`s; `none` if the divisor is zero (NaN, since the dividend is then zero as well). -/
noncomputable def quotient (x y : ℝ) : Option ℝ := if y = 0 then none else some (x / y)

/-- `triangulation.h` 90-93. -/
noncomputable def Triangle.sinA (t : Triangle) : Option ℝ := quotient (2 * t.square) (t.ac.length * t.ab.length)
/-- `triangulation.h` 95-98. -/
noncomputable def Triangle.sinB (t : Triangle) : Option ℝ := quotient (2 * t.square) (t.bc.length * t.ab.length)
/-- `triangulation.h` 100-103. -/
noncomputable def Triangle.sinC (t : Triangle) : Option ℝ := quotient (2 * t.square) (t.bc.length * t.ac.length)

/-- `x < y`, false if `x` is NaN. -/
def isBelow (x : Option ℝ) (y : ℝ) : Prop := ∃ v, x = some v ∧ v < y

/-- `triangulation.h` 105-114: `circumcircle_contains`. -/
def Triangle.contains (t : Triangle) (v : Vertex) : Prop :=
  ¬ (v.eqv t.a || v.eqv t.b || v.eqv t.c) ∧
  let D1 := det3 t.a.x t.b.x t.c.x t.a.y t.b.y t.c.y 1 1 1
  let D2 := det3
    (t.a.x - v.x) (t.a.y - v.y) ((t.a.x * t.a.x - v.x * v.x) + (t.a.y * t.a.y - v.y * v.y))
    (t.b.x - v.x) (t.b.y - v.y) ((t.b.x * t.b.x - v.x * v.x) + (t.b.y * t.b.y - v.y * v.y))
    (t.c.x - v.x) (t.c.y - v.y) ((t.c.x * t.c.x - v.x * v.x) + (t.c.y * t.c.y - v.y * v.y))
  D1 * D2 > eps

open Classical in
/-- `triangulation.cpp` 62-73: remove the triangles containing `v`, collecting their edges. -/
noncomputable def scan (v : Vertex) : List Triangle → List Triangle × List Edge
  | [] => ([], [])
  | t :: ts =>
    let r := scan v ts
    if t.contains v then (r.1, t.ab :: t.bc :: t.ac :: r.2) else (t :: r.1, r.2)

/-- `triangulation.cpp` 78-84: the triangles made from the sorted edges, skipping adjacent pairs of
equal edges. -/
def fan (v : Vertex) : List Edge → List Triangle
  | [] => []
  | [e] => [⟨v, e.b, e.e⟩]
  | e :: f :: es => if e.eqv f then fan v es else ⟨v, e.b, e.e⟩ :: fan v (f :: es)

/-- The `std::sort` calls (lines 77, 103). -/
structure Sorts where
  edges : List Edge → List Edge
  triangles : List Triangle → List Triangle

/-- `triangulation.cpp` 57-85: the loop body. -/
noncomputable def insertVertex (s : Sorts) (ts : List Triangle) (v : Vertex) : List Triangle :=
  let r := scan v ts
  r.1 ++ fan v (s.edges r.2)

/-- `triangulation.cpp` 20-41 and 46-50: the three corners of the super triangle. The running minima
and maxima start from the first vertex instead of ±DBL_MAX. -/
noncomputable def superVertices (v0 : Vertex) (vs : List Vertex) : List Vertex :=
  let maxX := vs.foldl (fun m v => if v.x > m then v.x else m) v0.x + 10
  let minX := vs.foldl (fun m v => if v.x < m then v.x else m) v0.x - 10
  let maxY := vs.foldl (fun m v => if v.y > m then v.y else m) v0.y + 10
  let minY := vs.foldl (fun m v => if v.y < m then v.y else m) v0.y - 10
  [⟨minX + minY - maxY, minY, "super1"⟩, ⟨maxX + maxY - minY, minY, "super2"⟩,
   ⟨(minX + maxX) / 2, maxY + (maxX - minX) / 2, "super3"⟩]

open Classical in
/-- `triangulation.cpp` 87-100: is the triangle erased at the end? `minsin` is −1. -/
noncomputable def dropped (s1 s2 s3 : Vertex) (maxedge : ℝ) (t : Triangle) : Bool :=
  t.a.eqv s1 || t.b.eqv s1 || t.c.eqv s1 || t.a.eqv s2 || t.b.eqv s2 || t.c.eqv s2 ||
  t.a.eqv s3 || t.b.eqv s3 || t.c.eqv s3 ||
  decide (t.ab.length > maxedge) || decide (t.bc.length > maxedge) || decide (t.ac.length > maxedge) ||
  decide (isBelow t.sinA (-1)) || decide (isBelow t.sinB (-1)) || decide (isBelow t.sinC (-1))

/-- `triangulation.cpp` 8-106: `TriangulateVertices`. -/
noncomputable def triangulateVertices (s : Sorts) (vertices : List Vertex) (maxedge : ℝ) : List Triangle :=
  if vertices.length < 3 then []
  else match vertices with
    | [] => []
    | v0 :: vs =>
      match superVertices v0 (v0 :: vs) with
      | [s1, s2, s3] =>
        let V := [s1, s2, s3] ++ (v0 :: vs)
        let T := V.foldl (insertVertex s) [⟨s1, s2, s3⟩]
        s.triangles (T.filter (fun t => !dropped s1 s2 s3 maxedge t))
      | _ => []

end Verif.Triang
