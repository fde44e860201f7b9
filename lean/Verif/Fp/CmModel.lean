import Verif.Fp.Instance
import Verif.Post.Model

/-!
# The end of the post-processing in floating point

`getProcessedPosition` without smoothers and without projection onto the graph, operation by operation, with a rounding after each
operation (see `Verif.Fp.Model`).  The numbers of the state are `double`s.
-/

namespace Verif.Fp

open Verif.Levels Verif.Post

/-- A rounding that keeps every number of 53 binary digits whose last one is not below `2⁻¹⁰⁷⁴`: it rounds to `double`. -/
def Binary (R : Rounding) : Prop := ∀ n e : ℤ, |n| ≤ 2 ^ 53 → -1074 ≤ e → R.rnd (n * 2 ^ e) = n * 2 ^ e

variable (R : Rounding)

/-- `position_postprocessor.cpp` 237-238, `std::floor(v * 100)`: the result of `floor` is a `double`. -/
noncomputable def centimetres (v : ℝ) : ℤ := ⌊R.rnd (v * 100)⌋

/-- `position_postprocessor.cpp` 231-238, one coordinate: clamp, then round down to 0.01. -/
noncomputable def fitF (lo hi v : ℝ) : ℝ := R.rnd (centimetres R (min (max v lo) hi) / 100)

/-- `geometry.cpp` 8-11: the distance. -/
noncomputable def getDistF (ax ay bx by' : ℝ) : ℝ :=
  R.rnd (Real.sqrt (R.rnd (R.rnd (R.rnd (ax - bx) * R.rnd (ax - bx)) + R.rnd (R.rnd (ay - by') * R.rnd (ay - by')))))

/-- `position_postprocessor.cpp` 20-22: a time of the settings in milliseconds. -/
noncomputable def millisF (t : ℝ) : Int := toLongLong (R.rnd (1000 * t))

/-- `position_postprocessor.cpp` 190: no step for the stop detection time. -/
noncomputable def stopDetectedF (cs : CommonSettings) (s : PostState) (ts : Int) : Prop :=
  s.lastStepTs > 0 ∧ ts - s.lastStepTs ≥ millisF R cs.stopDetectionTime

open Classical in
/-- `position_postprocessor.cpp` 190-213: take over or hold the position. -/
noncomputable def takeOverF (cs : CommonSettings) (s : PostState) (result : Position) (ts : Int) : PostState :=
  let dist := getDistF R s.lastOut.x s.lastOut.y result.x result.y
  if cs.useStops = true ∧ stopDetectedF R cs s ts then
    if ts - s.lastExtractionTs > millisF R cs.stopUpdateTime ∧ dist < cs.useStopsDistanceThresholdM then
      { s with lastExtractionTs := ts, lastOut := { result with ts := ts } }
    else { s with lastOut := { s.lastOut with ts := ts } }
  else { s with lastOut := { result with ts := ts, deviationM := s.indoorPos.deviationM } }

/-- `position_postprocessor.cpp` 231-238. -/
noncomputable def fitInBoxF (b : Box) (p : Position) : Position :=
  { p with x := fitF R b.minCorner.x b.maxCorner.x p.x, y := fitF R b.minCorner.y b.maxCorner.y p.y }

open Classical in
/-- `position_postprocessor.cpp` 159-241: `getProcessedPosition` without smoothers (178-186) and projection (217-228). -/
noncomputable def processedF (cs : CommonSettings) (s : PostState) (fused : Position) (ts : Int) (lastMotionTs : Int) (level : Level) :
    Position × PostState :=
  let s := if lastMotionTs > 0 then { s with lastStepTs := lastMotionTs } else s
  if fused.isEmpty = true then (Position.default, s)
  else if ¬ isInsideMap cs fused level then (Position.default, s)
  else if ts - fused.ts ≥ millisF R cs.deadReckoningTime then (Position.default, s)
  else
    let s' := takeOverF R cs s fused ts
    let out := fitInBoxF R level.geometry.boundingBox s'.lastOut
    (out, { s' with lastOut := out })

/-- A call of `getProcessedPosition`: the fused position, the time and the time of the last step that is passed (0: none). -/
structure Call where
  fused : Position
  ts : Int
  motion : Int

/-- The positions that a sequence of calls returns, the state after it. -/
noncomputable def callsF (cs : CommonSettings) (level : Level) : PostState → List Call → List Position × PostState
  | s, [] => ([], s)
  | s, c :: l =>
    let r := processedF R cs s c.fused c.ts c.motion level
    let rest := callsF cs level r.2 l
    (r.1 :: rest.1, rest.2)

end Verif.Fp
