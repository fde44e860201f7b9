import Verif.Fp.Model
import Verif.LevelEst.Model

/-!
# The barometer in floating point

`Barometer::checkLevelChange` once more, with a rounding after each operation. The logarithm of the C library is the parameter `logF`.
-/

namespace Verif.Fp

open Verif Verif.LevelEst

variable (R : Rounding)

/-- `barometer.cpp` 17-21: `BAROMETER_PASCAL_TO_METERS`; the constants that are not integers are rounded. -/
noncomputable def pascalToMetersF : ℝ :=
  R.rnd (R.rnd (-R.rnd (831 / 100) * 288) ÷ R.rnd (R.rnd (98 / 10) * R.rnd (289 / 10000)))

/-- `barometer.cpp` 27-36: `calcMean`. The size is converted to `double` without rounding. -/
noncomputable def calcMeanF (l : List ℝ) : ℝ :=
  if l.isEmpty then 0 else R.rnd (l.foldl (fun s x => R.rnd (s + x)) 0 ÷ l.length)

/-- `barometer.cpp` 100-103: the difference of the heights from the two means. -/
noncomputable def deltaHeightF (logF : ℝ → ℝ) (curMean lastMean : ℝ) : ℝ :=
  R.rnd (pascalToMetersF R * logF (R.rnd (R.rnd (100 * curMean) ÷ R.rnd (100 * lastMean))))

/-- `barometer.cpp` 83-113: `updateLevel`. -/
noncomputable def updateLevelF (logF : ℝ → ℝ) (b : Barometer) (levelId : String) : Barometer :=
  if b.newM.length > sizeOfChunk ∧ b.stored.length ≥ sizeOfChunk then
    if b.lastKnownLevel ≠ levelId then
      let curMean := calcMeanF R b.newM
      let lastMean := calcMeanF R b.stored
      if curMean ≤ doubleEpsilon ∨ lastMean ≤ doubleEpsilon then b
      else if |deltaHeightF R logF curMean lastMean| > 2 then { b with lastKnownLevel := levelId } else b
    else b
  else { b with lastKnownLevel := levelId }

/-- `barometer.cpp` 42-55: `checkLevelChange`. -/
noncomputable def checkLevelChangeF (logF : ℝ → ℝ) (b : Barometer) (levelId : String) (m : SensorMeasurement) : String × Barometer :=
  if !b.isInitialized then (levelId, { b with isInitialized := true })
  else
    let b1 := updateLevelF R logF (updateBuffers b m) levelId
    (b1.lastKnownLevel, b1)

end Verif.Fp
