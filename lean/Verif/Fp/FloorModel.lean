import Verif.Fp.Model
import Verif.LevelEst.Model

/-!
# The floor by transmitters in floating point

`LevelEstimatorTransmitters::detectCurrentLevel` once more, with a rounding after each operation. Sizes are converted to `double` without rounding.
-/

namespace Verif.Fp

open Verif Verif.Levels Verif.LevelEst

variable (R : Rounding)

/-- `level_estimator_transmitters.cpp` 21-28: `getAverageRssi`. -/
noncomputable def getAverageRssiF (msr : List RadioData) : ℝ :=
  R.rnd (msr.foldl (fun a m => R.rnd (a + m.rssi)) 0 ÷ (max msr.length 1 : ℕ))

/-- `level_estimator_transmitters.cpp` 30-41: `getAverageA`; `none`: `transmitter` throws. -/
noncomputable def getAverageAF (l : Level) (msr : List RadioData) : Option ℝ :=
  match msr.foldlM (fun a m => (l.transmitter m.id).map (fun t => R.rnd (a + t.pathloss.A))) (0 : ℝ) with
  | none => none
  | some s => some (R.rnd (s ÷ (max msr.length 1 : ℕ)))

/-- `level_estimator_transmitters.cpp` 61: the weight of a level. -/
noncomputable def levelWeightF (n N : ℕ) : ℝ := R.rnd (1 + R.rnd (R.rnd (R.rnd (1 / 10) * n) ÷ N))

/-- `level_estimator_transmitters.cpp` 53-62: the cost of one level; `none`: throws. -/
noncomputable def levelCostF (useTxPower : Bool) (radioMsr levelMsr : List RadioData) (l : Level) : Option ℝ :=
  let averageA? := if useTxPower then getAverageAF R l levelMsr else some 0
  match averageA? with
  | none => none
  | some averageA => some (R.rnd (R.rnd (getAverageRssiF R levelMsr + averageA) ÷ levelWeightF R levelMsr.length radioMsr.length))

/-- `level_estimator_transmitters.cpp` 48-70: the loop body. -/
noncomputable def detectStepF (useTxPower : Bool) (radioMsr : List RadioData) (best : ℝ × String) (l : Level) : Option (ℝ × String) :=
  let levelMsr := getLevelRadioMeasurements RadioData.id l radioMsr
  if levelMsr.isEmpty then some best
  else match levelCostF R useTxPower radioMsr levelMsr l with
    | none => none
    | some averageCost => some (if averageCost > best.1 then (averageCost, l.id) else best)

/-- `level_estimator_transmitters.cpp` 43-73: `detectCurrentLevel`; `none`: throws. -/
noncomputable def detectByTransmittersF (useTxPower : Bool) (c : LevelCollector) (radioMsr : List RadioData) : Option String :=
  (c.levels.foldlM (detectStepF R useTxPower radioMsr) (-1000, "")).map Prod.snd

end Verif.Fp
