import Verif.Fp.KnnModel
import Verif.Smooth.Model

/-!
# The time smoother in floating point

`navigation_time_smoother.cpp` once more, with a rounding after each operation.
-/

namespace Verif.Fp

open Verif Verif.Smooth

variable (R : Rounding)

/-- `navigation_time_smoother.cpp` 57-58: one coordinate; `a` and `k` are `actualTsDiff` and `keptTsDiff`. -/
noncomputable def timeMeanF (next prev a k : ℝ) : ℝ := R.rnd (R.rnd (R.rnd (next * a) + R.rnd (prev * R.rnd (k - a))) ÷ k)

/-- `navigation_time_smoother.cpp` 48-65: the part after the update of the kept positions. The differences of the times are converted to
`double`, and the converted ones are compared. -/
noncomputable def timeInterpolateF (s : TimeState) (last : Position) (currentTs : Int) : Position :=
  if s.next.ts = s.prev.ts then s.next
  else
    let actualTsDiff : ℝ := R.rnd ((currentTs - s.next.ts : Int) : ℝ)
    let keptTsDiff : ℝ := R.rnd ((s.next.ts - s.prev.ts : Int) : ℝ)
    if actualTsDiff > keptTsDiff then last
    else
      { s.next with
        x := timeMeanF R s.next.x s.prev.x actualTsDiff keptTsDiff
        y := timeMeanF R s.next.y s.prev.y actualTsDiff keptTsDiff
        ts := currentTs }

/-- `navigation_time_smoother.cpp` 23-66: `getTimeSmoothedPosition`. -/
noncomputable def timeSmoothF (s : TimeState) (last : Position) (currentTs : Int) : Position × TimeState :=
  if currentTs < last.ts then (last, s)
  else if s.prev.levelId ≠ last.levelId ∨ s.next.levelId ≠ last.levelId then (last, ⟨last, last⟩)
  else if s.prev.isEmpty ∨ s.next.isEmpty ∨ last.isEmpty then (last, ⟨s.next, last⟩)
  else
    let s' : TimeState := if last.ts > s.next.ts then ⟨s.next, last⟩ else s
    (timeInterpolateF R s' last currentTs, s')

end Verif.Fp
