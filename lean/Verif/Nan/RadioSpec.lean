import Verif.Nan.RadioModel
import Verif.Nan.Spec
import Verif.Common

/-!
# Specification for C150: radio readings that are not numbers
-/

namespace Verif.Nan.Rd

/-- Something happens to the buffer: a message arrives, or the measurements are taken out. -/
inductive Event (α : Type) where
  | message (m : Heard α)
  | takeOut (lastStepTs : Int)

variable {α : Type} (A : Arithmetic α)

/-- The measurements taken out in the course of the events, and the buffer afterwards. -/
noncomputable def run (exp : α → α) (c : Config α) : Buffer α → List (Event α) → List (List (Entry α)) × Buffer α
  | b, [] => ([], b)
  | b, .message m :: es => run exp c (hear A c b m) es
  | b, .takeOut t :: es =>
    let r := extract A c b t
    let rest := run exp c r.2 es
    (r.1.map (withDistance A exp c) :: rest.1, rest.2)

/-- A message whose strength is not a number. -/
def NoStrength : Event α → Prop
  | .message m => A.nan m.data.rssi
  | .takeOut _ => False

end Verif.Nan.Rd
