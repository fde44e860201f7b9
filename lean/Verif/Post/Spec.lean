import Verif.Post.Model
import Verif.Geometry.Spec

/-!
# Specification vocabulary for the post-processor: histories of calls

Apart from `postStep` and `postRun`, which execute the modelled calls, only the arguments and the returned
positions are inspected here.
-/

namespace Verif.Post

open Verif.Levels
open Verif.Geo (XYPoint)

/-- One call of the post-processor. -/
inductive PostOp where
  | fuse (curTs : Int) (indoor outdoor : Position) (status : NavigationStatus)
  | process (fused : Position) (ts lastMotionTs : Int) (level : Level)

/-- Execute one call; `allowed l` is the allowed area of the level `l`. -/
noncomputable def postStep (cs : CommonSettings) (allowed : Level → ℝ → ℝ → Prop) (s : PostState) :
    PostOp → Option (Position × PostState)
  | .fuse curTs indoor outdoor status => some (fusePositions cs s curTs indoor outdoor status)
  | .process fused ts m level => getProcessedPosition cs (allowed level) s fused ts m level

/-- The list of results of `getProcessedPosition`, newest first, after one more call. -/
def recordOut (outs : List Position) (o : Position) : PostOp → List Position
  | .fuse .. => outs
  | .process .. => o :: outs

/-- Execute a history from a new object; also the positions `getProcessedPosition` returned, newest first. -/
noncomputable def postRun (cs : CommonSettings) (allowed : Level → ℝ → ℝ → Prop) (ops : List PostOp) :
    Option (PostState × List Position) :=
  ops.foldl (fun r op => r.bind (fun (r : PostState × List Position) =>
    (postStep cs allowed r.1 op).map (fun o => (o.2, recordOut r.2 o.1 op)))) (some (postInit cs, []))

/-- The non-empty indoor positions given to `fusePositions`, newest first. -/
def indoorGiven (ops : List PostOp) : List Position :=
  (ops.filterMap (fun op => match op with
    | .fuse _ i _ _ => if i.isEmpty then none else some i
    | .process .. => none)).reverse

/-- The non-empty outdoor positions given to `fusePositions`, newest first. -/
def outdoorGiven (ops : List PostOp) : List Position :=
  (ops.filterMap (fun op => match op with
    | .fuse _ _ o _ => if o.isEmpty then none else some o
    | .process .. => none)).reverse

/-- The last position given, or the empty one. -/
noncomputable def lastGiven (l : List Position) : Position := l.headD Position.default

/-- The deviation tracked for a stream of positions (newest first): the mean of the newest deviation and
the prior one, which grows with the time since the position before and is bounded by `prior`. -/
noncomputable def trackedDev (prior speed : ℝ) : List Position → ℝ
  | [] => prior
  | [p] => (prior + p.deviationM) / 2
  | p :: q :: rest =>
    (min prior (trackedDev prior speed (q :: rest) + speed * ((p.ts - q.ts : Int) : ℝ) / 1000) + p.deviationM) / 2

/-- Age in seconds at the time `now`. -/
noncomputable def ageSec (now : Int) (p : Position) : ℝ := ((max 0 (now - p.ts) : Int) : ℝ) / 1000

/-- A stream with non-negative deviations whose time stamps do not go back. -/
def Regular (l : List Position) : Prop :=
  (∀ p ∈ l, 0 ≤ p.deviationM) ∧ l.Pairwise (fun newer older => older.ts ≤ newer.ts)

/-- The last positive motion time reported so far; -1 if there is none. -/
def lastMotion (ops : List PostOp) : Int :=
  ops.foldl (fun m op => match op with
    | .fuse .. => m
    | .process _ _ l _ => if l > 0 then l else m) (-1)

/-- After the calls `ops` the user is considered to stand still at time `ts`: stops are in use, there was
motion once, but none for the detection time. -/
def StandsStill (cs : CommonSettings) (ops : List PostOp) (ts : Int) : Prop :=
  cs.useStops = true ∧ lastMotion ops > 0 ∧ ts - lastMotion ops ≥ toLongLong (1000 * cs.stopDetectionTime)

/-- The last non-empty position that was returned. -/
def lastShown (outs : List Position) : Option Position := outs.find? (fun o => !o.isEmpty)

/-- The calls process non-empty positions only on levels with a non-empty id. -/
def NamedLevels (ops : List PostOp) : Prop :=
  ∀ fused ts m level, PostOp.process fused ts m level ∈ ops → fused.isEmpty = false → fused.levelId ≠ ""

/-- All calls of `getProcessedPosition` are made with the box `b`. -/
def SameBox (b : Box) (ops : List PostOp) : Prop :=
  ∀ fused ts m level, PostOp.process fused ts m level ∈ ops → level.geometry.boundingBox = b

/-- The call `process fused ts m level` made after `ops` returns a non-empty position with coordinates other
than those shown before, while the user stands still. `p` is shown before, `r` after. -/
def MovesWhileStill (cs : CommonSettings) (allowed : Level → ℝ → ℝ → Prop) (ops : List PostOp)
    (fused : Position) (ts m : Int) (level : Level) (p r : Position) : Prop :=
  StandsStill cs (ops ++ [.process fused ts m level]) ts ∧
  r.isEmpty = false ∧ (r.x ≠ p.x ∨ r.y ≠ p.y) ∧
  ∃ s outs s', postRun cs allowed ops = some (s, outs) ∧ lastShown outs = some p ∧
    postRun cs allowed (ops ++ [.process fused ts m level]) = some (s', r :: outs)

end Verif.Post
