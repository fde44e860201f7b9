import Verif.Fp.CmModel
import Verif.Post.Spec

/-!
# The fusion of indoor and outdoor positions in floating point

`PositionPostprocessor::fusePositions` once more, with a rounding after each operation.
-/

namespace Verif.Fp

open Verif Verif.Post

variable (R : Rounding)

/-- `position_postprocessor.cpp` 58, 65: the prior deviation; the difference of the times is converted to `double`. -/
noncomputable def priorDevF (cs : CommonSettings) (stored given : Position) (dev : ℝ) : ℝ :=
  if stored.isEmpty then cs.priorDeviation
  else min cs.priorDeviation
    (R.rnd (dev + R.rnd (R.rnd (cs.averageMovSpeed * R.rnd ((given.ts - stored.ts : Int) : ℝ)) / 1000)))

/-- `position_postprocessor.cpp` 56-61. -/
noncomputable def fillIndoorF (cs : CommonSettings) (s : PostState) (indoor : Position) : PostState :=
  if indoor.isEmpty then s
  else { s with
    indoorPos := indoor
    indoorDev := R.rnd (R.rnd (priorDevF R cs s.indoorPos indoor s.indoorDev + indoor.deviationM) / 2) }

/-- `position_postprocessor.cpp` 63-68. -/
noncomputable def fillOutdoorF (cs : CommonSettings) (s : PostState) (outdoor : Position) : PostState :=
  if outdoor.isEmpty then s
  else { s with
    outdoorPos := outdoor
    outdoorDev := R.rnd (R.rnd (priorDevF R cs s.outdoorPos outdoor s.outdoorDev + outdoor.deviationM) / 2) }

/-- `position_postprocessor.cpp` 92-93: the age of a stored position in seconds. -/
noncomputable def delayF (curTs : Int) (p : Position) : ℝ :=
  if curTs ≥ p.ts then R.rnd (R.rnd ((curTs - p.ts : Int) : ℝ) / 1000) else 0

/-- `position_postprocessor.cpp` 101-102: the deviation grown by the motion since. -/
noncomputable def grownF (speed age dev : ℝ) : ℝ := R.rnd (R.rnd (speed * age) + dev)

/-- `position_postprocessor.cpp` 111-112: one coordinate of the mean. -/
noncomputable def fuseMeanF (p q dp dq : ℝ) : ℝ := R.rnd (R.rnd (R.rnd (p * dq) + R.rnd (q * dp)) ÷ R.rnd (dq + dp))

/-- `position_postprocessor.cpp` 79-118: the choice after the update of the stored positions. -/
noncomputable def chooseFusedF (cs : CommonSettings) (s : PostState) (curTs : Int) (indoor outdoor : Position)
    (status : NavigationStatus) : Position :=
  if cs.useInstantGpsPosition = true ∧ outdoor.isEmpty = false then outdoor
  else if cs.preferIndoorSolution = true ∧ indoor.isEmpty = false ∧ status = .OK then indoor
  else if cs.useGps = false ∨ s.outdoorPos.isEmpty = true then s.indoorPos
  else if s.indoorPos.isEmpty = true then s.outdoorPos
  else if delayF R curTs s.indoorPos > cs.positionIsTooOldSec then s.outdoorPos
  else if delayF R curTs s.outdoorPos > cs.positionIsTooOldSec then s.indoorPos
  else
    let indoorDev := grownF R cs.averageMovSpeed (delayF R curTs s.indoorPos) s.indoorDev
    let outdoorDev := grownF R cs.averageMovSpeed (delayF R curTs s.outdoorPos) s.outdoorDev
    let positionsDist := getDistF R s.indoorPos.x s.indoorPos.y s.outdoorPos.x s.outdoorPos.y
    let accuracyDist := R.rnd (R.rnd (s.indoorPos.deviationM + s.outdoorPos.deviationM) + cs.fuseGpsBorderM)
    if cs.fuseGps = true ∧ accuracyDist > positionsDist then
      { s.indoorPos with
        ts := max s.indoorPos.ts s.outdoorPos.ts
        x := fuseMeanF R s.indoorPos.x s.outdoorPos.x indoorDev outdoorDev
        y := fuseMeanF R s.indoorPos.y s.outdoorPos.y indoorDev outdoorDev
        deviationM := min indoorDev outdoorDev
        provider := .FUSED }
    else if indoorDev < outdoorDev then s.indoorPos else s.outdoorPos

/-- `position_postprocessor.cpp` 71-119: `fusePositions`. -/
noncomputable def fusePositionsF (cs : CommonSettings) (s : PostState) (curTs : Int) (indoor outdoor : Position)
    (status : NavigationStatus) : Position × PostState :=
  let s' := fillOutdoorF R cs (fillIndoorF R cs s indoor) outdoor
  (chooseFusedF R cs s' curTs indoor outdoor status, s')

end Verif.Fp
