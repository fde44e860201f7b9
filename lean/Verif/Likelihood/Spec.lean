import Verif.Likelihood.Model
import Verif.Geometry.Spec
import Verif.Knn.EstimatorProps

/-!
# Specification vocabulary for the particle likelihood (C60, C83, C84)
-/

namespace Verif.Likelihood

open Verif.Levels
open Verif.Geo (XYPoint)

/-- The place of a particle. -/
def Particle.place (q : Particle) : XYPoint := ⟨q.x, q.y⟩

/-- The unnormalised weight of a place: one over the distance to the likely point plus ten centimetres. -/
noncomputable def rawWeight (p : XYPoint) (q : XYPoint) : ℝ := 1 / (1 / 10 + Geometry.dist q p)

/-- At least as many usable measurements as required for a position. -/
def Enough (c : LevelCollector) (s : CommonSettings) (level : Level) (msr : List RadioData) : Prop :=
  s.minNumOfMeasurementsForPositionCalculation ≤ (Knn.usable c level.id msr).length

/-- The point around which the measurements place the user: the position the KNN estimator answers for them. -/
def Likely (sorts : Triang.Sorts) (sort : List (String × ℝ) → List (String × ℝ)) (c : LevelCollector) (s : CommonSettings)
    (level : Level) (msr : List RadioData) (p : Option XYPoint) : Prop :=
  match p with
  | some p => ∀ old ts, Knn.calculatePosition (Knn.mkCfg sorts sort c s) old level ts msr =
      .ok (.OK, ⟨p.x, p.y, level.id, 1, ts, false, .INDOOR, 0⟩)
  | none => ∀ old ts, Knn.calculatePosition (Knn.mkCfg sorts sort c s) old level ts msr = .ok (.NAVIGATION_ERROR, old)

end Verif.Likelihood
