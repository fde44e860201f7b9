import Verif.Post.Spec
import Verif.Smooth.LsProps
import Verif.Smooth.TimeProps

/-!
# Specification: the smoothers of the post-processor in series

The calls that are not rejected, in order, and the smoothers as separate objects that get exactly these calls.
-/

namespace Verif.Post

open Verif.Smooth
open Verif.Levels

/-- A call of `getProcessedPosition`: the fused position, the time, the level. -/
structure Call where
  fused : Position
  ts : Int
  level : Level

/-- The call is not rejected: the position is not empty, it lies in the box of the level (or may lie outside) and it is younger than
the dead reckoning time. -/
def Call.Good (cs : CommonSettings) (c : Call) : Prop :=
  c.fused.isEmpty = false ∧
  (cs.useGpsOutsideMap = true ∨
    (c.level.geometry.boundingBox.minCorner.x ≤ c.fused.x ∧ c.fused.x ≤ c.level.geometry.boundingBox.maxCorner.x ∧
      c.level.geometry.boundingBox.minCorner.y ≤ c.fused.y ∧ c.fused.y ≤ c.level.geometry.boundingBox.maxCorner.y)) ∧
  c.ts - c.fused.ts < toLongLong (1000 * cs.deadReckoningTime)

open Classical in
/-- The calls that were not rejected, oldest first. -/
noncomputable def goodCalls (cs : CommonSettings) (ops : List PostOp) : List Call :=
  (ops.filterMap (fun op => match op with
    | .fuse .. => none
    | .process f ts _ l => some ⟨f, ts, l⟩)).filter (fun c => c.Good cs)

/-- The calls an alpha-beta smoother gets: one per position, after a reset if the level is not the one of the call before. -/
def abCalls (allowed : Level → ℝ → ℝ → Prop) : String → List Call → List AbOp
  | _, [] => []
  | lvl, c :: cs =>
    (if lvl ≠ c.fused.levelId then [.reset c.fused] else []) ++
      .smooth c.fused (allowed c.level) :: abCalls allowed c.fused.levelId cs

/-- The same for a least squares smoother. -/
def lsCalls (allowed : Level → ℝ → ℝ → Prop) : String → List Call → List LsOp
  | _, [] => []
  | lvl, c :: cs =>
    (if lvl ≠ c.fused.levelId then [.reset c.fused] else []) ++
      .smooth c.fused (allowed c.level) :: lsCalls allowed c.fused.levelId cs

/-- The level of the last call, the empty id before the first one. -/
def lastLevel : List Call → String := fun l => (l.getLast?.map (fun c => c.fused.levelId)).getD ""

/-- What the smoother chosen by the settings, as an object of its own, answers to a call after the calls before. -/
def SmoothedTo (cs : CommonSettings) (allowed : Level → ℝ → ℝ → Prop) (before : List Call) (c : Call) (q : Position) : Prop :=
  if cs.useSmoothing = false then q = c.fused
  else if cs.useAbFilter = true then
    q = (abSmooth (abParams cs) (allowed c.level)
      (abRun (abParams cs) (abCalls allowed "" before ++ if lastLevel before ≠ c.fused.levelId then [.reset c.fused] else []))
      c.fused).1
  else
    ∃ s s', lsRun (lsParams cs) cs.useBarriers 0
        (lsCalls allowed "" before ++ if lastLevel before ≠ c.fused.levelId then [.reset c.fused] else []) = some s ∧
      lsSmooth (lsParams cs) cs.useBarriers (allowed c.level) s c.fused = some (q, s')

/-- The answers to all calls. -/
def AllSmoothed (cs : CommonSettings) (allowed : Level → ℝ → ℝ → Prop) (calls : List Call) (qs : List Position) : Prop :=
  qs.length = calls.length ∧
  ∀ before c after, calls = before ++ c :: after → ∃ q, qs[before.length]? = some q ∧ SmoothedTo cs allowed before c q

end Verif.Post
