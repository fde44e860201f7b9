import Verif.Smooth.Model
import Verif.Fp.Model

/-!
# The alpha-beta smoother in floating point
-/

namespace Verif.Fp

open Verif Verif.Smooth

variable (R : Rounding)

/-- `position_smoother_ab.cpp` 7-8, 12-23: the constructor. The constants 0.1 and 0.9 are rounded by the compiler. -/
noncomputable def abParamsF (s : CommonSettings) : AbParams :=
  let smoothing := min 1 (max 0 s.smoothing)
  ⟨s.useBarriers, s.useSpeedConstraint, s.useAccuracyForSmoothing,
    R.rnd (R.rnd (R.rnd (1 / 10) * smoothing) + R.rnd (R.rnd (9 / 10) * R.rnd (1 - smoothing)))⟩

/-- `position_smoother_ab.cpp` 31-37: the gain `a`. -/
noncomputable def abGainF (P : AbParams) (s : AbState) (pos : Position) : ℝ :=
  if P.useAccuracyForSmoothing then
    min (max (R.rnd (1 / 10)) (R.rnd (s.position.deviationM ÷ R.rnd (R.rnd (pos.deviationM + s.position.deviationM) + 1 / 2)))) (R.rnd (9 / 10))
  else P.alpha

/-- `position_smoother_ab.cpp` 30: the interval in seconds; the difference of the times is converted to `double` first. -/
noncomputable def intervalF (d : Int) : ℝ := R.rnd (R.rnd d / 1000)

/-- `position_smoother_ab.cpp` 42: `b`. -/
noncomputable def abBetaF (a : ℝ) : ℝ := R.rnd (R.rnd (a * a) ÷ R.rnd (2 - a))

/-- `position_smoother_ab.cpp` 44, 48: the predicted coordinate. -/
noncomputable def predictF (x v t : ℝ) : ℝ := R.rnd (x + R.rnd (v * t))

/-- `position_smoother_ab.cpp` 45, 49: the new speed. -/
noncomputable def speedF (a x v t p : ℝ) : ℝ :=
  R.rnd (v + R.rnd (R.rnd (abBetaF R a ÷ t) * R.rnd (p - predictF R x v t)))

/-- `position_smoother_ab.cpp` 46, 50: the smoothed coordinate. -/
noncomputable def placeF (a x v t p : ℝ) : ℝ :=
  R.rnd (predictF R x v t + R.rnd (a * R.rnd (p - predictF R x v t)))

/-- `position_smoother_ab.cpp` 52, 80: the length of the speed. -/
noncomputable def velocityF (vx vy : ℝ) : ℝ := R.rnd (Real.sqrt (R.rnd (R.rnd (vx * vx) + R.rnd (vy * vy))))

open Classical in
/-- `position_smoother_ab.cpp` 25-85: `smoothPosition`. Overflow is outside the model, so the test `isfinite` succeeds. -/
noncomputable def abSmoothF (P : AbParams) (allowed : ℝ → ℝ → Prop) (s : AbState) (pos : Position) : Position × AbState :=
  if pos.ts > s.position.ts then
    let t := intervalF R (pos.ts - s.position.ts)
    let a := abGainF R P s pos
    let vxp := speedF R a s.position.x s.speedX t pos.x
    let xs := placeF R a s.position.x s.speedX t pos.x
    let vyp := speedF R a s.position.y s.speedY t pos.y
    let ys := placeF R a s.position.y s.speedY t pos.y
    let timeIsTooLong := t > TIME_THRESHOLD_SEC
    let velocityIsTooFast := P.useSpeedConstraint = true ∧ velocityF R vxp vyp > MAX_OBJECT_VELOCITY_MPS
    let isInsideBarrier := P.useBarriers = true ∧ ¬ allowed xs ys
    if s.wasCalled = false ∨ timeIsTooLong ∨ velocityIsTooFast ∨ isInsideBarrier then
      (pos, ⟨true, 0, 0, pos⟩)
    else
      let pos' := { pos with x := xs, y := ys }
      let dev := if P.useAccuracyForSmoothing then
          R.rnd (R.rnd (R.rnd (1 - a) * R.rnd (pos'.deviationM + R.rnd (t * velocityF R vxp vyp))) + R.rnd (a * pos'.deviationM))
        else pos'.deviationM
      let pos'' := { pos' with deviationM := dev }
      (pos'', ⟨s.wasCalled, vxp, vyp, pos''⟩)
  else (s.position, s)

/-- The object after the first `n` measurements. -/
noncomputable def abIterateF (P : AbParams) (allowed : ℕ → ℝ → ℝ → Prop) (s : AbState) (pos : ℕ → Position) : ℕ → AbState
  | 0 => s
  | n + 1 => (abSmoothF R P (allowed n) (abIterateF P allowed s pos n) (pos n)).2

end Verif.Fp
