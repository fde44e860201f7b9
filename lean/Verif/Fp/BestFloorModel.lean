import Verif.Fp.KnnModel

/-!
# The floor by the best reference point in floating point

`LevelEstimatorRadiomap::detectCurrentLevel` with `useBestRefPointLevel` on, with a rounding after each operation. The library function `pow` is
the parameter `trustF`, as in `KnnModel.lean`.
-/

namespace Verif.Fp

open Verif Verif.Levels Verif.Knn

variable (R : Rounding)

/-- `level_estimator_radiomap.cpp` 86-107: `calcWeightBestRp`. -/
noncomputable def calcWeightBestRpF (trustF : RadioData → ℝ) (msr : List RadioData) (fps : List Fingerprint) : ℝ :=
  (rpWeightsF R trustF fps msr true).foldl (fun b p => if p.2 > b then p.2 else b) 0

/-- `level_estimator_radiomap.cpp` 31-42: the loop body with `mUseBestRp` true; `none`: `at` throws. -/
noncomputable def bestStepF (trustF : RadioData → ℝ) (maps : List (String × List Fingerprint)) (msr : List RadioData) (best : ℝ × String)
    (l : Level) : Option (ℝ × String) :=
  match StdMap.find? maps l.id with
  | none => none
  | some rm => some (if calcWeightBestRpF R trustF msr rm > best.1 then (calcWeightBestRpF R trustF msr rm, l.id) else best)

/-- `level_estimator_radiomap.cpp` 26-45: `detectCurrentLevel`; `maps` is computed by the constructor (16-24). -/
noncomputable def detectByBestRpF (trustF : RadioData → ℝ) (maps : List (String × List Fingerprint)) (c : LevelCollector)
    (msr : List RadioData) : Option String :=
  (c.levels.foldlM (bestStepF R trustF maps msr) (0, "")).map Prod.snd

end Verif.Fp
