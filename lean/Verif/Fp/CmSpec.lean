import Verif.Fp.CmModel

/-!
# Specification vocabulary for C137: shown places as `double`s of whole centimetres
-/

namespace Verif.Fp

open Verif.Levels Verif.Post

variable (R : Rounding)

/-- The `double` of a whole number of centimetres, in metres. -/
def Whole (v : ℝ) (j : ℤ) : Prop := v = R.rnd (j / 100)

/-- A floor box as floor plans have: the corners in order, and within 9000 km of the local origin. -/
structure Sane (b : Box) : Prop where
  x : b.minCorner.x ≤ b.maxCorner.x
  y : b.minCorner.y ≤ b.maxCorner.y
  x0 : -(9 * 10 ^ 6) ≤ b.minCorner.x
  y0 : -(9 * 10 ^ 6) ≤ b.minCorner.y
  x1 : b.maxCorner.x ≤ 9 * 10 ^ 6
  y1 : b.maxCorner.y ≤ 9 * 10 ^ 6

/-- A call with a position that is on the map and not outdated. -/
structure Accepted (cs : CommonSettings) (lv : Level) (c : Call) : Prop where
  known : c.fused.isEmpty = false
  inside : isInsideMap cs c.fused lv
  fresh : c.ts - c.fused.ts < millisF R cs.deadReckoningTime

/-- A call while the user stands still (last step at time `step`) that has to leave the shown place `p` as it is: the last renewal
(at time `renewed`) is not long ago, or the new place is far from `p`. -/
structure Quiet (cs : CommonSettings) (lv : Level) (step renewed : Int) (p : Position) (c : Call) : Prop where
  accepted : Accepted R cs lv c
  noStep : c.motion ≤ 0
  stepped : 0 < step
  still : millisF R cs.stopDetectionTime ≤ c.ts - step
  kept : c.ts - renewed ≤ millisF R cs.stopUpdateTime ∨ cs.useStopsDistanceThresholdM ≤ getDistF R p.x p.y c.fused.x c.fused.y

/-- All calls are such calls, each for the place shown just before. -/
def AllQuiet (cs : CommonSettings) (lv : Level) (step renewed : Int) : Position → List Call → List Position → Prop
  | p, c :: l, q :: out => Quiet R cs lv step renewed p c ∧ AllQuiet cs lv step renewed q l out
  | _, [], [] => True
  | _, _, _ => False

/-- `q` is shown as a remainder of `p`, `n` messages later: `j` whole centimetres became at least `j - n` and at most `j`, not less
than the whole quarters of a metre in `j`. -/
def Crept (n : ℕ) (v w : ℝ) : Prop :=
  ∃ j k : ℤ, Whole R v j ∧ Whole R w k ∧ j - n ≤ k ∧ k ≤ j ∧ 25 * (j / 25) ≤ k

/-- `w` is what is shown for the coordinate `v` between `lo` and `hi`: the `double` of the whole centimetres in the clamped
coordinate, or of one more when less than a thousandth of a millimetre is missing. -/
def ShownAs (lo hi v w : ℝ) : Prop :=
  Whole R w ⌊min (max v lo) hi * 100⌋ ∨
    (Whole R w (⌊min (max v lo) hi * 100⌋ + 1) ∧ (⌊min (max v lo) hi * 100⌋ + 1 : ℝ) / 100 - min (max v lo) hi ≤ 1 / 10 ^ 6)

/-- A call that does not find the user standing still: no step is known, or the last one (in this call, or before it at `step`) is
not long ago. -/
def Walking (cs : CommonSettings) (step : Int) (c : Call) : Prop :=
  cs.useStops = false ∨ (if 0 < c.motion then c.motion else step) ≤ 0 ∨
    c.ts - (if 0 < c.motion then c.motion else step) < millisF R cs.stopDetectionTime

end Verif.Fp
