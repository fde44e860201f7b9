import Verif.Nan.SmoothModel
import Verif.Nan.Spec
import Verif.Nan.FixSpec

/-!
# Specification for C148: a place that is not a number in the alpha-beta smoother
-/

namespace Verif.Nan.Ab

open Verif.Smooth (AbParams)

variable {α : Type} (A : Arithmetic α)

/-- The places told for a sequence of places, and the state afterwards. -/
noncomputable def run (finite : α → Prop) (allowed : α → α → Prop) (P : AbParams) : State α → List (Place α) → List (Place α) × State α
  | s, [] => ([], s)
  | s, p :: ps =>
    let r := smooth A finite allowed P s p
    let rest := run finite allowed P r.2 ps
    (r.1 :: rest.1, rest.2)

/-- The coordinates of a place. -/
def coords (p : Place α) : α × α := (p.x, p.y)

/-- The second place is newer than the first one, by no more than ten seconds as far as the arithmetic can tell. -/
def Soon (p q : Place α) : Prop := p.ts < q.ts ∧ ¬ A.lt (A.lit 10) (A.div (A.lit ((q.ts - p.ts : Int) : ℝ)) (A.lit 1000))

end Verif.Nan.Ab
