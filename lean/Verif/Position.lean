import Verif.Geo.Model
import Mathlib.Data.String.Basic

/-!
# Model of `src/position.h` and `include/navigine/navigation-core/navigation_output.h`
-/

namespace Verif

/-- `navigation_output.h` 12-21: `enum NavigationStatus`. -/
inductive NavigationStatus where
  | OK | NAVIGATION_ERROR | NO_SOLUTION | NO_RPS | NO_LEVEL | PF_MUTATION_FAILED | PF_SAMPLING_FAILED
  deriving DecidableEq

/-- `navigation_output.h` 23: `enum class Provider`. -/
inductive Provider where
  | GNSS | INDOOR | FUSED | NONE
  deriving DecidableEq

/-- `position.h` 18-49: `struct Position`. -/
structure Position where
  x : ℝ
  y : ℝ
  levelId : String
  deviationM : ℝ
  ts : Int
  isEmpty : Bool
  provider : Provider
  heading : ℝ

/-- `position.h` 20-28: the default constructor. -/
noncomputable def Position.default : Position := ⟨0, 0, "", 0, 0, true, .NONE, 0⟩

/-- The `XYPoint` base of a position. -/
def Position.toXY (p : Position) : Geo.XYPoint := ⟨p.x, p.y⟩

end Verif
