import Verif.Fp.Model
import Verif.Knn.Model

/-!
# The floor by fingerprints in floating point

`LevelEstimatorRadiomap::detectCurrentLevel` with `useBestRefPointLevel` off, with a rounding after each operation. Counts are converted to
`double` without rounding, and the products with 1.0 of line 72 are exact.
-/

namespace Verif.Fp

open Verif Verif.Levels Verif.Knn

variable (R : Rounding)

/-- `level_estimator_radiomap.cpp` 71-72: the closeness of a measured to a stored signal. -/
noncomputable def closeTermF (rssi mean : ℝ) : ℝ := R.rnd (1 ÷ R.rnd (|R.rnd (|rssi| - |mean|)| + R.rnd (1 / 10)))

/-- `level_estimator_radiomap.cpp` 57-79: one measurement's contribution; the pair is
(`levelWeight`, `nUniqueTransmitters`). -/
noncomputable def calcWeightStepF (fps : List Fingerprint) (acc : ℝ × ℕ) (m : RadioData) : ℝ × ℕ :=
  let range := fps.filter (fun f => f.tx == m.id)
  let measWeight := range.foldl (fun a f => R.rnd (a + closeTermF R m.rssi f.stat.mean)) (0 : ℝ)
  let lw := if range.length > 0 then R.rnd (acc.1 + R.rnd (measWeight ÷ range.length)) else acc.1
  (lw, if range.length > 0 then acc.2 + 1 else acc.2)

/-- `level_estimator_radiomap.cpp` 48-83: `calcWeight`. -/
noncomputable def calcWeightF (msr : List RadioData) (fps : List Fingerprint) : ℝ :=
  let r := msr.foldl (calcWeightStepF R fps) (0, 0)
  R.rnd (r.1 * r.2)

/-- `level_estimator_radiomap.cpp` 31-42: the loop body with `mUseBestRp` false; `none`: `at` throws. -/
noncomputable def printStepF (maps : List (String × List Fingerprint)) (msr : List RadioData) (best : ℝ × String) (l : Level) :
    Option (ℝ × String) :=
  match StdMap.find? maps l.id with
  | none => none
  | some rm => some (if calcWeightF R msr rm > best.1 then (calcWeightF R msr rm, l.id) else best)

/-- `level_estimator_radiomap.cpp` 26-45: `detectCurrentLevel`; `maps` is computed by the constructor (16-24). -/
noncomputable def detectByRadiomapF (maps : List (String × List Fingerprint)) (c : LevelCollector) (msr : List RadioData) : Option String :=
  (c.levels.foldlM (printStepF R maps msr) (0, "")).map Prod.snd

end Verif.Fp
