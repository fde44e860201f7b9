import Verif.Smooth.Model
import Verif.Estim.Model
import Verif.NavGraph.Model

/-!
# Model of `src/position_postprocessor/position_postprocessor.{h,cpp}`
-/

namespace Verif.Post

open Verif.Smooth
open Verif.Levels
open Verif.Geo (XYPoint)

/-- `(long long)(double)`: truncation towards zero (values beyond the range are not modelled). -/
noncomputable def toLongLong (x : ℝ) : Int := if 0 ≤ x then ⌊x⌋ else ⌈x⌉

/-- `position_postprocessor.cpp` 38-43: the chosen `PositionSmoother` with its state. -/
inductive Smoother where
  | ab (P : AbParams) (s : AbState)
  | ls (P : FitParams) (useBarriers : Bool) (s : LsState)

/-- The virtual `smoothPosition`; `none` is undefined behaviour. -/
noncomputable def Smoother.smooth (allowed : ℝ → ℝ → Prop) : Smoother → Position → Option (Position × Smoother)
  | .ab P s, pos => let r := abSmooth P allowed s pos; some (r.1, .ab P r.2)
  | .ls P ub s, pos => (lsSmooth P ub allowed s pos).map (fun r => (r.1, .ls P ub r.2))

/-- The virtual `reset`. -/
noncomputable def Smoother.reset : Smoother → Position → Smoother
  | .ab P s, pos => .ab P (abReset s pos)
  | .ls P ub s, pos => .ls P ub (lsReset s pos)

/-- `position_postprocessor.h` 52-64: the mutable members. -/
structure PostState where
  indoorDev : ℝ
  outdoorDev : ℝ
  time : TimeState
  smoother : Smoother
  indoorPos : Position
  outdoorPos : Position
  lastOut : Position
  lastExtractionTs : Int
  lastStepTs : Int

/-- `position_postprocessor.cpp` 10-44: the constructor. -/
noncomputable def postInit (cs : CommonSettings) : PostState where
  indoorDev := cs.priorDeviation
  outdoorDev := cs.priorDeviation
  time := timeInit
  smoother := if cs.useAbFilter then .ab (abParams cs) abInit else .ls (lsParams cs) cs.useBarriers (lsInit 0)
  indoorPos := Position.default
  outdoorPos := Position.default
  lastOut := Position.default
  lastExtractionTs := 0
  lastStepTs := -1

/-- `position_postprocessor.cpp` 58, 65: the prior deviation of a stored position. -/
noncomputable def priorDev (cs : CommonSettings) (stored given : Position) (dev : ℝ) : ℝ :=
  if stored.isEmpty then cs.priorDeviation
  else min cs.priorDeviation (dev + cs.averageMovSpeed * ((given.ts - stored.ts : Int) : ℝ) / 1000)

/-- `position_postprocessor.cpp` 56-61. -/
noncomputable def fillIndoor (cs : CommonSettings) (s : PostState) (indoor : Position) : PostState :=
  if indoor.isEmpty then s
  else { s with
    indoorPos := indoor
    indoorDev := (priorDev cs s.indoorPos indoor s.indoorDev + indoor.deviationM) / 2 }

/-- `position_postprocessor.cpp` 63-68. -/
noncomputable def fillOutdoor (cs : CommonSettings) (s : PostState) (outdoor : Position) : PostState :=
  if outdoor.isEmpty then s
  else { s with
    outdoorPos := outdoor
    outdoorDev := (priorDev cs s.outdoorPos outdoor s.outdoorDev + outdoor.deviationM) / 2 }

/-- `position_postprocessor.cpp` 92-93: the age of a stored position in seconds. -/
noncomputable def delay (curTs : Int) (p : Position) : ℝ :=
  if curTs ≥ p.ts then ((curTs - p.ts : Int) : ℝ) / 1000 else 0

/-- `position_postprocessor.cpp` 79-118: the choice after the update of the stored positions. A sum of
deviations that is zero divides by zero in the code. -/
noncomputable def chooseFused (cs : CommonSettings) (s : PostState) (curTs : Int) (indoor outdoor : Position)
    (status : NavigationStatus) : Position :=
  if cs.useInstantGpsPosition = true ∧ outdoor.isEmpty = false then outdoor
  else if cs.preferIndoorSolution = true ∧ indoor.isEmpty = false ∧ status = .OK then indoor
  else if cs.useGps = false ∨ s.outdoorPos.isEmpty = true then s.indoorPos
  else if s.indoorPos.isEmpty = true then s.outdoorPos
  else if delay curTs s.indoorPos > cs.positionIsTooOldSec then s.outdoorPos
  else if delay curTs s.outdoorPos > cs.positionIsTooOldSec then s.indoorPos
  else
    let indoorDev := cs.averageMovSpeed * delay curTs s.indoorPos + s.indoorDev
    let outdoorDev := cs.averageMovSpeed * delay curTs s.outdoorPos + s.outdoorDev
    let positionsDist := Geometry.getDist s.indoorPos.x s.indoorPos.y s.outdoorPos.x s.outdoorPos.y
    let accuracyDist := s.indoorPos.deviationM + s.outdoorPos.deviationM + cs.fuseGpsBorderM
    if cs.fuseGps = true ∧ accuracyDist > positionsDist then
      { s.indoorPos with
        ts := max s.indoorPos.ts s.outdoorPos.ts
        x := (s.indoorPos.x * outdoorDev + s.outdoorPos.x * indoorDev) ÷ (outdoorDev + indoorDev)
        y := (s.indoorPos.y * outdoorDev + s.outdoorPos.y * indoorDev) ÷ (outdoorDev + indoorDev)
        deviationM := min indoorDev outdoorDev
        provider := .FUSED }
    else if indoorDev < outdoorDev then s.indoorPos else s.outdoorPos

/-- `position_postprocessor.cpp` 71-119: `fusePositions`. -/
noncomputable def fusePositions (cs : CommonSettings) (s : PostState) (curTs : Int) (indoor outdoor : Position)
    (status : NavigationStatus) : Position × PostState :=
  let s' := fillOutdoor cs (fillIndoor cs s indoor) outdoor
  (chooseFused cs s' curTs indoor outdoor status, s')

/-- `position_postprocessor.cpp` 152-157: `isInsideMap`. -/
def isInsideMap (cs : CommonSettings) (pos : Position) (level : Level) : Prop :=
  cs.useGpsOutsideMap = true ∨ Estim.Box.Covers level.geometry.boundingBox pos.toXY

/-- `position_postprocessor.cpp` 178-186: the smoothers. -/
noncomputable def smoothing (cs : CommonSettings) (allowed : ℝ → ℝ → Prop) (s : PostState) (fused : Position)
    (ts : Int) : Option (Position × PostState) :=
  let r : Option (Position × PostState) :=
    if cs.useSmoothing then
      let sm := if s.lastOut.levelId ≠ fused.levelId then s.smoother.reset fused else s.smoother
      (sm.smooth allowed fused).map (fun r => (r.1, { s with smoother := r.2 }))
    else some (fused, s)
  r.map (fun r =>
    if cs.useTimeSmoothing then
      let t := timeSmooth r.2.time r.1 ts
      (t.1, { r.2 with time := t.2 })
    else r)

/-- `position_postprocessor.cpp` 190: no step for the stop detection time. -/
noncomputable def stopDetected (cs : CommonSettings) (s : PostState) (ts : Int) : Prop :=
  s.lastStepTs > 0 ∧ ts - s.lastStepTs ≥ toLongLong (1000 * cs.stopDetectionTime)

open Classical in
/-- `position_postprocessor.cpp` 190-213: take over or hold the position. -/
noncomputable def takeOver (cs : CommonSettings) (s : PostState) (result : Position) (ts : Int) : PostState :=
  let dist := Geometry.getDist s.lastOut.x s.lastOut.y result.x result.y
  if cs.useStops = true ∧ stopDetected cs s ts then
    if ts - s.lastExtractionTs > toLongLong (1000 * cs.stopUpdateTime) ∧ dist < cs.useStopsDistanceThresholdM then
      { s with lastExtractionTs := ts, lastOut := { result with ts := ts } }
    else { s with lastOut := { s.lastOut with ts := ts } }
  else { s with lastOut := { result with ts := ts, deviationM := s.indoorPos.deviationM } }

open Classical in
/-- `position_postprocessor.cpp` 217-228: projection to the graph; `none`: `getVertex` throws. -/
noncomputable def snapToGraph (cs : CommonSettings) (level : Level) (p : Position) : Option Position :=
  if cs.useGraphProjection then
    let p1 : Geometry.LocationPoint := ⟨p.levelId, p.x, p.y⟩
    match NavGraph.projectOnGraph level.graph p1 with
    | none => none
    | some p2 =>
      match Geometry.getDistLP p1 p2 with
      | none => some p
      | some distance => some (if distance < cs.graphProjDist then { p with x := p2.x, y := p2.y } else p)
  else some p

/-- `position_postprocessor.cpp` 231-238, one coordinate: clamp, then round down to 0.01. -/
noncomputable def fitCoordinate (lo hi x : ℝ) : ℝ := (⌊min (max x lo) hi * 100⌋ : ℝ) / 100

/-- `position_postprocessor.cpp` 231-238: fitting into the box and rounding. -/
noncomputable def fitInBox (b : Box) (p : Position) : Position :=
  { p with
    x := fitCoordinate b.minCorner.x b.maxCorner.x p.x
    y := fitCoordinate b.minCorner.y b.maxCorner.y p.y }

open Classical in
/-- `position_postprocessor.cpp` 159-241: `getProcessedPosition`; of the motion info only `lastMotionTs` is
read; `allowed` is the Boost test against the level's allowed area. `none`: undefined behaviour or an
exception. -/
noncomputable def getProcessedPosition (cs : CommonSettings) (allowed : ℝ → ℝ → Prop) (s : PostState)
    (fused : Position) (ts : Int) (lastMotionTs : Int) (level : Level) : Option (Position × PostState) :=
  let s := if lastMotionTs > 0 then { s with lastStepTs := lastMotionTs } else s
  if fused.isEmpty = true then some (Position.default, s)
  else if ¬ isInsideMap cs fused level then some (Position.default, s)
  else if ts - fused.ts ≥ toLongLong (1000 * cs.deadReckoningTime) then some (Position.default, s)
  else
    (smoothing cs allowed s fused ts).bind (fun r =>
      let s' := takeOver cs r.2 r.1 ts
      (snapToGraph cs level s'.lastOut).map (fun p =>
        let out := fitInBox level.geometry.boundingBox p
        (out, { s' with lastOut := out })))

end Verif.Post
