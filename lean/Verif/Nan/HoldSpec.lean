import Verif.Nan.HoldModel
import Verif.Nan.Spec
import Verif.Nan.FixSpec

/-!
# Specification for C149: a place that is not a number while the user stands
-/

namespace Verif.Nan.Hold

variable {α : Type} (A : Arithmetic α)

/-- The places told for a sequence of calls, and the members afterwards. -/
noncomputable def run (floor : α → α) (c : Config α) (m : Map α) : State α → List (Call α) → List (Place α) × State α
  | s, [] => ([], s)
  | s, k :: ks =>
    let r := tell A floor c m s k
    let rest := run floor c m r.2 ks
    (r.1 :: rest.1, rest.2)

/-- A place with a coordinate that is not a number. -/
def BadPlace (p : Place α) : Prop := A.nan p.x ∨ A.nan p.y

/-- At this call the user has made no step since the time `since`, and that is long enough for a stop. -/
def Stands (c : Config α) (since : Int) (k : Call α) : Prop := (k.step = since ∨ k.step ≤ 0) ∧ c.stopDetectionTime ≤ k.ts - since

end Verif.Nan.Hold
