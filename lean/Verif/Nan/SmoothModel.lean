import Verif.Nan.FixModel
import Verif.Smooth.Model

/-!
# Model of the alpha-beta smoother over numbers that need not be numbers

`src/position_postprocessor/position_smoother_ab.cpp` and the end of `position_postprocessor.cpp` once more, over any arithmetic that has
values that are not numbers (NaN). `finite` is `std::isfinite`, `floor` is `std::floor`, `allowed` is the Boost test against the allowed
area of the level. Of a position the members these functions use are kept.
-/

namespace Verif.Nan.Ab

open Verif.Smooth (AbParams MIN_ALPHA MAX_ALPHA TIME_THRESHOLD_SEC MAX_OBJECT_VELOCITY_MPS)

variable {α : Type} (A : Arithmetic α)

/-- `position_smoother_ab.h` 20-25: the state. -/
structure State (α : Type) where
  wasCalled : Bool
  speedX : α
  speedY : α
  position : Place α

/-- `position_smoother_ab.cpp` 16-18 and the default `mPosition`. -/
def init : State α := ⟨false, A.lit 0, A.lit 0, ⟨A.lit 0, A.lit 0, "", A.lit 0, 0, true⟩⟩

open Classical in
/-- `std::max(a, b)`: the second one if the first is less. -/
noncomputable def maxOf (a b : α) : α := if A.lt a b then b else a

open Classical in
/-- `std::min(a, b)`: the second one if it is less. -/
noncomputable def minOf (a b : α) : α := if A.lt b a then b else a

/-- `position_smoother_ab.cpp` 31-37: the gain `a`. -/
noncomputable def gain (P : AbParams) (s : State α) (pos : Place α) : α :=
  if P.useAccuracyForSmoothing then
    minOf A (maxOf A (A.lit MIN_ALPHA)
      (A.div s.position.deviation (A.add (A.add pos.deviation s.position.deviation) (A.lit (1 / 2))))) (A.lit MAX_ALPHA)
  else A.lit P.alpha

open Classical in
/-- `position_smoother_ab.cpp` 25-85: `smoothPosition`, the returned position and the new state. -/
noncomputable def smooth (finite : α → Prop) (allowed : α → α → Prop) (P : AbParams) (s : State α) (pos : Place α) :
    Place α × State α :=
  if pos.ts > s.position.ts then
    let t := A.div (A.lit ((pos.ts - s.position.ts : Int) : ℝ)) (A.lit 1000)
    let a := gain A P s pos
    let b := A.div (A.mul a a) (A.sub (A.lit 2) a)
    let xp := A.add s.position.x (A.mul s.speedX t)
    let vxp := A.add s.speedX (A.mul (A.div b t) (A.sub pos.x xp))
    let xs := A.add xp (A.mul a (A.sub pos.x xp))
    let yp := A.add s.position.y (A.mul s.speedY t)
    let vyp := A.add s.speedY (A.mul (A.div b t) (A.sub pos.y yp))
    let ys := A.add yp (A.mul a (A.sub pos.y yp))
    let velocity := A.sqrt (A.add (A.mul vxp vxp) (A.mul vyp vyp))
    let timeIsTooLong := A.lt (A.lit TIME_THRESHOLD_SEC) t
    let velocityIsTooFast := P.useSpeedConstraint = true ∧ A.lt (A.lit MAX_OBJECT_VELOCITY_MPS) velocity
    let isInsideBarrier := P.useBarriers = true ∧ ¬ allowed xs ys
    if s.wasCalled = false ∨ timeIsTooLong ∨ velocityIsTooFast ∨ isInsideBarrier then
      (pos, ⟨true, A.lit 0, A.lit 0, pos⟩)
    else
      let pos' := if finite xs ∧ finite ys then { pos with x := xs, y := ys } else pos
      let dev := if P.useAccuracyForSmoothing then
          A.add (A.mul (A.sub (A.lit 1) a) (A.add pos'.deviation (A.mul t (A.sqrt (A.add (A.mul vxp vxp) (A.mul vyp vyp))))))
            (A.mul a pos'.deviation)
        else pos'.deviation
      let pos'' := { pos' with deviation := dev }
      (pos'', ⟨s.wasCalled, vxp, vyp, pos''⟩)
  else (s.position, s)

/-- `position_smoother_ab.cpp` 87-92: `reset`. -/
def reset (s : State α) (pos : Place α) : State α := ⟨s.wasCalled, A.lit 0, A.lit 0, pos⟩

/-- `position_postprocessor.cpp` 231-238, one coordinate: clamp, then round down to 0.01. -/
noncomputable def fitCoordinate (floor : α → α) (lo hi x : α) : α :=
  A.div (floor (A.mul (minOf A (maxOf A x lo) hi) (A.lit 100))) (A.lit 100)

end Verif.Nan.Ab
