import Verif.NavGraph.Model
import Verif.Geometry.Spec

/-!
# Specification vocabulary for graphs: what a history of calls means

Only the list of calls is inspected here, never the stored graph.
-/

namespace Verif.NavGraph

variable {P : Type*}

/-- The points given to `addVertex`, in call order. -/
def addedPoints : List (Op P) → List P
  | [] => []
  | .addVertex p :: ops => p :: addedPoints ops
  | .addEdge _ _ :: ops => addedPoints ops

/-- At the time described by the calls `ops` the id `i` names a vertex. -/
def NamesVertex (ops : List (Op P)) (i : Int) : Prop := 0 ≤ i ∧ i < (addedPoints ops).length

/-- The history contains a call joining `i` and `j` (in either order) made when both existed. -/
def Joined (ops : List (Op P)) (i j : Int) : Prop :=
  ∃ pre post a b, ops = pre ++ Op.addEdge a b :: post ∧ NamesVertex pre a ∧ NamesVertex pre b ∧
    ((a = i ∧ b = j) ∨ (a = j ∧ b = i))

/-- `q` lies on the segment drawn for some edge of the history. -/
def OnGraph (ops : List (Op Geo.XYPoint)) (q : Geo.XYPoint) : Prop :=
  ∃ (i j : ℕ) (u v : Geo.XYPoint), Joined ops i j ∧ (addedPoints ops)[i]? = some u ∧
    (addedPoints ops)[j]? = some v ∧ Geometry.OnSegment u v q

end Verif.NavGraph
