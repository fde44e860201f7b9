import Verif.Nan.SmoothModel
import Verif.Post.Model

/-!
# Model of the end of the postprocessor over numbers that need not be numbers

`position_postprocessor.cpp` 121-150 and 190-240 and `geometry.cpp` once more, over any arithmetic that has values that are not numbers
(NaN). The place that comes out of the smoothers is given; `floor` is `std::floor`. An edge of the graph is given by its two ends; an edge
of a graph that names a vertex that does not exist makes the code throw and is left out.
-/

namespace Verif.Nan.Hold

open Verif.Nan.Ab (fitCoordinate)

/-- `position_postprocessor.cpp` 10-30: what the end of the postprocessor reads of the settings. -/
structure Config (α : Type) where
  useStops : Bool
  stopDetectionTime : Int
  stopUpdateTime : Int
  threshold : α
  useGraph : Bool
  graphDistance : α

/-- What is read of a level: the ends of the edges of its graph and its box. -/
structure Map (α : Type) where
  edges : List (Pt α × Pt α)
  minCorner : Pt α
  maxCorner : Pt α

/-- `position_postprocessor.h` 62-65: the members. -/
structure State (α : Type) where
  last : Place α
  extractionTs : Int
  stepTs : Int

/-- One call: the place after the smoothers, the time, the time of the last step (not positive: none) and the deviation of the last indoor
place. -/
structure Call (α : Type) where
  place : Place α
  ts : Int
  step : Int
  indoorDeviation : α

variable {α : Type} (A : Arithmetic α)

/-- `position_postprocessor.cpp` 31-36, `position.h` 20-28: the initial members. -/
def init : State α := ⟨noPlace A, 0, -1⟩

/-- `geometry.cpp` 8-11: `GetDist`. -/
def dist (a b : Pt α) : α := A.sqrt (A.add (A.mul (A.sub a.x b.x) (A.sub a.x b.x)) (A.mul (A.sub a.y b.y) (A.sub a.y b.y)))

open Classical in
/-- `geometry.cpp` 93-108: `GetProjection`, the number `k` and the point. -/
noncomputable def projection (a b o : Pt α) : α × Pt α :=
  let ab := A.add (A.mul (A.sub b.x a.x) (A.sub b.x a.x)) (A.mul (A.sub b.y a.y) (A.sub b.y a.y))
  let ao := A.add (A.mul (A.sub o.x a.x) (A.sub b.x a.x)) (A.mul (A.sub o.y a.y) (A.sub b.y a.y))
  let k := if A.lt (A.lit Geometry.eps) ab then A.div ao ab else A.lit 0
  (k, ⟨A.add a.x (A.mul k (A.sub b.x a.x)), A.add a.y (A.mul k (A.sub b.y a.y))⟩)

open Classical in
/-- `position_postprocessor.cpp` 132-138: the point of one edge. -/
noncomputable def edgePoint (u v p : Pt α) : Pt α :=
  let r := projection A u v p
  if A.lt r.1 (A.lit 0) then u else if A.lt (A.lit 1) r.1 then v else r.2

open Classical in
/-- `position_postprocessor.cpp` 127-147: the loop over the edges; `none` is the initial `d0 = NAN`. All points are on one level. -/
noncomputable def nearest (p : Pt α) : List (Pt α × Pt α) → Pt α → Option α → Pt α
  | [], p0, _ => p0
  | e :: es, p0, d0 =>
    let p1 := edgePoint A e.1 e.2 p
    let d := dist A p p1
    if (match d0 with | none => True | some d' => A.nan d' ∨ A.lt d d') then nearest p es p1 (some d) else nearest p es p0 d0

open Classical in
/-- `position_postprocessor.cpp` 190-213: take over or hold the place. -/
noncomputable def takeOver (c : Config α) (s : State α) (k : Call α) : State α :=
  let d := dist A ⟨s.last.x, s.last.y⟩ ⟨k.place.x, k.place.y⟩
  if c.useStops = true ∧ s.stepTs > 0 ∧ k.ts - s.stepTs ≥ c.stopDetectionTime then
    if k.ts - s.extractionTs > c.stopUpdateTime ∧ A.lt d c.threshold then
      { s with extractionTs := k.ts, last := { k.place with ts := k.ts } }
    else { s with last := { s.last with ts := k.ts } }
  else { s with last := { k.place with ts := k.ts, deviation := k.indoorDeviation } }

open Classical in
/-- `position_postprocessor.cpp` 217-228: projection to the graph. -/
noncomputable def snap (c : Config α) (m : Map α) (q : Place α) : Place α :=
  if c.useGraph then
    let p1 : Pt α := ⟨q.x, q.y⟩
    let p2 := nearest A p1 m.edges p1 none
    let d := dist A p1 p2
    if ¬ A.nan d ∧ A.lt d c.graphDistance then { q with x := p2.x, y := p2.y } else q
  else q

/-- `position_postprocessor.cpp` 164-165, 190-240: one call, the place told and the members after it. -/
noncomputable def tell (floor : α → α) (c : Config α) (m : Map α) (s : State α) (k : Call α) : Place α × State α :=
  let s := if k.step > 0 then { s with stepTs := k.step } else s
  let s := takeOver A c s k
  let q := snap A c m s.last
  let out := { q with
    x := fitCoordinate A floor m.minCorner.x m.maxCorner.x q.x
    y := fitCoordinate A floor m.minCorner.y m.maxCorner.y q.y }
  (out, { s with last := out })

end Verif.Nan.Hold
