import Verif.Smooth.Poly
import Verif.Position
import Verif.Settings
import Verif.Arith

/-!
# Model of the smoothers in `src/position_postprocessor`

`position_smoother_ab.cpp`, `position_smoother_lstsq.cpp`, `navigation_time_smoother.cpp`.
The Boost test `covered_by(Point(x, y), level.geometry().allowedArea())` is the parameter
`allowed x y`; timestamps are unbounded integers; coordinates are finite reals, so that
`std::isfinite` is true for them.
-/

namespace Verif.Smooth

/-! ## Alpha-beta smoother -/

/-- `position_smoother_ab.cpp` 7-10. -/
noncomputable def MAX_ALPHA : ℝ := 9 / 10
noncomputable def MIN_ALPHA : ℝ := 1 / 10
noncomputable def TIME_THRESHOLD_SEC : ℝ := 10
noncomputable def MAX_OBJECT_VELOCITY_MPS : ℝ := 4

/-- `position_smoother_ab.h` 17-19, 23: the constants of the object. -/
structure AbParams where
  useBarriers : Bool
  useSpeedConstraint : Bool
  useAccuracyForSmoothing : Bool
  alpha : ℝ

/-- `position_smoother_ab.h` 20-25: the state; `mTsMs` is never used. -/
structure AbState where
  wasCalled : Bool
  speedX : ℝ
  speedY : ℝ
  position : Position

/-- `position_smoother_ab.cpp` 12-23: the constructor. -/
noncomputable def abParams (s : CommonSettings) : AbParams :=
  let smoothing := min 1 (max 0 s.smoothing)
  ⟨s.useBarriers, s.useSpeedConstraint, s.useAccuracyForSmoothing,
    MIN_ALPHA * smoothing + MAX_ALPHA * (1 - smoothing)⟩

/-- `position_smoother_ab.cpp` 16-18 and the default `mPosition`. -/
noncomputable def abInit : AbState := ⟨false, 0, 0, Position.default⟩

/-- `position_smoother_ab.cpp` 31-37: the gain `a`. -/
noncomputable def abGain (P : AbParams) (s : AbState) (pos : Position) : ℝ :=
  if P.useAccuracyForSmoothing then
    min (max MIN_ALPHA (s.position.deviationM ÷ (pos.deviationM + s.position.deviationM + 1 / 2))) MAX_ALPHA
  else P.alpha

open Classical in
/-- `position_smoother_ab.cpp` 25-85: `smoothPosition`, the returned position and the new state. -/
noncomputable def abSmooth (P : AbParams) (allowed : ℝ → ℝ → Prop) (s : AbState) (pos : Position) :
    Position × AbState :=
  if pos.ts > s.position.ts then
    let t : ℝ := ((pos.ts - s.position.ts : Int) : ℝ) / 1000
    let a := abGain P s pos
    let b := a * a ÷ (2 - a)
    let xp := s.position.x + s.speedX * t
    let vxp := s.speedX + (b ÷ t) * (pos.x - xp)
    let xs := xp + a * (pos.x - xp)
    let yp := s.position.y + s.speedY * t
    let vyp := s.speedY + (b ÷ t) * (pos.y - yp)
    let ys := yp + a * (pos.y - yp)
    let velocity := Real.sqrt (vxp * vxp + vyp * vyp)
    let timeIsTooLong := t > TIME_THRESHOLD_SEC
    let velocityIsTooFast := P.useSpeedConstraint = true ∧ velocity > MAX_OBJECT_VELOCITY_MPS
    let isInsideBarrier := P.useBarriers = true ∧ ¬ allowed xs ys
    if s.wasCalled = false ∨ timeIsTooLong ∨ velocityIsTooFast ∨ isInsideBarrier then
      (pos, ⟨true, 0, 0, pos⟩)
    else
      let pos' := { pos with x := xs, y := ys }
      let dev := if P.useAccuracyForSmoothing then
          (1 - a) * (pos'.deviationM + t * Real.sqrt (vxp * vxp + vyp * vyp)) + a * pos'.deviationM
        else pos'.deviationM
      let pos'' := { pos' with deviationM := dev }
      (pos'', ⟨s.wasCalled, vxp, vyp, pos''⟩)
  else (s.position, s)

/-- `position_smoother_ab.cpp` 87-92: `reset`. -/
noncomputable def abReset (s : AbState) (pos : Position) : AbState := ⟨s.wasCalled, 0, 0, pos⟩

/-! ## Least squares smoother -/

/-- `position_smoother_lstsq.h` 18-25; `mStartTime` is uninitialised until the first call or reset. -/
structure LsState where
  wasCalled : Bool
  fitX : FitState
  fitY : FitState
  startTime : Int

/-- `position_smoother_lstsq.cpp` 7-16: the constants of both fits. -/
noncomputable def lsParams (s : CommonSettings) : FitParams :=
  ⟨1, s.sigAveragingTime, s.sigWindowShift, min 1 (max 0 s.smoothing)⟩

/-- `position_smoother_lstsq.cpp` 7-16: a new object; the start time is arbitrary. -/
noncomputable def lsInit (startTime : Int) : LsState := ⟨false, fitInit, fitInit, startTime⟩

open Classical in
/-- `position_smoother_lstsq.cpp` 18-49: `smoothPosition`; `none` is undefined behaviour. With barriers in
use a prediction that is not finite is not covered by the allowed area. -/
noncomputable def lsSmooth (P : FitParams) (useBarriers : Bool) (allowed : ℝ → ℝ → Prop) (s : LsState)
    (pos : Position) : Option (Position × LsState) :=
  if s.wasCalled = false then some (pos, { s with startTime := pos.ts, wasCalled := true })
  else
    let t : ℝ := ((pos.ts - s.startTime : Int) : ℝ) / 1000
    match addSequencePoint P s.fitX t pos.x, addSequencePoint P s.fitY t pos.y with
    | some fx, some fy =>
      let px := predict P fx t
      let py := predict P fy t
      let s' : LsState := { s with fitX := px.2, fitY := py.2 }
      let inside : Prop := ∃ x y, px.1 = some x ∧ py.1 = some y ∧ allowed x y
      if useBarriers = true ∧ ¬ inside then
        some (pos, { s' with fitX := fitClear s'.fitX, fitY := fitClear s'.fitY, startTime := pos.ts })
      else
        match px.1, py.1 with
        | some x, some y => some ({ pos with x := x, y := y }, s')
        | _, _ => some (pos, s')
    | _, _ => none

/-- `position_smoother_lstsq.cpp` 51-56: `reset`. -/
def lsReset (s : LsState) (pos : Position) : LsState :=
  { s with fitX := fitClear s.fitX, fitY := fitClear s.fitY, startTime := pos.ts }

/-! ## Time smoother -/

/-- `navigation_time_smoother.h`: the two kept positions. -/
structure TimeState where
  prev : Position
  next : Position

/-- `navigation_time_smoother.cpp` 12-16: the constructor. -/
noncomputable def timeInit : TimeState := ⟨Position.default, Position.default⟩

/-- `navigation_time_smoother.cpp` 48-65: the part after the update of the kept positions. -/
noncomputable def timeInterpolate (s : TimeState) (last : Position) (currentTs : Int) : Position :=
  if s.next.ts = s.prev.ts then s.next
  else
    let actualTsDiff : ℝ := ((currentTs - s.next.ts : Int) : ℝ)
    let keptTsDiff : ℝ := ((s.next.ts - s.prev.ts : Int) : ℝ)
    if actualTsDiff > keptTsDiff then last
    else
      { s.next with
        x := (s.next.x * actualTsDiff + s.prev.x * (keptTsDiff - actualTsDiff)) ÷ keptTsDiff
        y := (s.next.y * actualTsDiff + s.prev.y * (keptTsDiff - actualTsDiff)) ÷ keptTsDiff
        ts := currentTs }

theorem timeInterpolate_eq (s : TimeState) (last : Position) (currentTs : Int) : timeInterpolate s last currentTs =
    if s.next.ts = s.prev.ts then s.next
    else
      let actualTsDiff : ℝ := ((currentTs - s.next.ts : Int) : ℝ)
      let keptTsDiff : ℝ := ((s.next.ts - s.prev.ts : Int) : ℝ)
      if actualTsDiff > keptTsDiff then last
      else
        { s.next with
          x := (s.next.x * actualTsDiff + s.prev.x * (keptTsDiff - actualTsDiff)) / keptTsDiff
          y := (s.next.y * actualTsDiff + s.prev.y * (keptTsDiff - actualTsDiff)) / keptTsDiff
          ts := currentTs } := by
  unfold timeInterpolate
  split_ifs with h
  · rfl
  · have h0 : ((s.next.ts - s.prev.ts : Int) : ℝ) ≠ 0 := by exact_mod_cast sub_ne_zero.mpr h
    dsimp only
    rw [divide_eq h0, divide_eq h0]

/-- `navigation_time_smoother.cpp` 23-66: `getTimeSmoothedPosition`. -/
noncomputable def timeSmooth (s : TimeState) (last : Position) (currentTs : Int) : Position × TimeState :=
  if currentTs < last.ts then (last, s)
  else if s.prev.levelId ≠ last.levelId ∨ s.next.levelId ≠ last.levelId then (last, ⟨last, last⟩)
  else if s.prev.isEmpty ∨ s.next.isEmpty ∨ last.isEmpty then (last, ⟨s.next, last⟩)
  else
    let s' : TimeState := if last.ts > s.next.ts then ⟨s.next, last⟩ else s
    (timeInterpolate s' last currentTs, s')

end Verif.Smooth
