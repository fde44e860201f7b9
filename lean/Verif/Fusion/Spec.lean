import Verif.Fusion.Model
import Verif.Pedo.Spec

/-!
# Specification vocabulary for the sensor fusion
-/

namespace Verif.Fusion

open Verif Verif.Pedo

/-- `while (x >= π) x -= 2π;` started with the first argument ends with the second. -/
inductive SubRuns : ℝ → ℝ → Prop
  | done {x : ℝ} (h : ¬ x ≥ Real.pi) : SubRuns x x
  | again {x r : ℝ} (h : x ≥ Real.pi) (rest : SubRuns (x - 2 * Real.pi) r) : SubRuns x r

/-- `while (x < -π) x += 2π;` started with the first argument ends with the second. -/
inductive AddRuns : ℝ → ℝ → Prop
  | done {x : ℝ} (h : ¬ x < -Real.pi) : AddRuns x x
  | again {x r : ℝ} (h : x < -Real.pi) (rest : AddRuns (x + 2 * Real.pi) r) : AddRuns x r

/-- The angles `a` and `b` differ by a whole number of turns. -/
def SameAngle (a b : ℝ) : Prop := ∃ k : ℤ, a = b + 2 * Real.pi * k

/-- The square of the norm. -/
noncomputable def Quat.normSq (q : Quat) : ℝ := q.w ^ 2 + q.x ^ 2 + q.y ^ 2 + q.z ^ 2

/-- The complementary filter after a sequence of measurements. -/
noncomputable def cfRun (c : CfConfig) (junk1 junk2 : SensorType × Int) (ms : List SensorMeasurement) : CfState :=
  ms.foldl (cfUpdate c) (cfInit junk1 junk2)

/-- One call of `calculateDisplacement`, with the record of all results. -/
noncomputable def fusionRecord (c : FusionConfig) (st : FusionState × List MotionInfo) (call : SensorMeasurement × Int) :
    Option (FusionState × List MotionInfo) :=
  (calculateDisplacement c st.1 call.1 call.2).map (fun r => (r.1, st.2 ++ [r.2]))

/-- A sequence of calls (measurement, time given) on a new object, with all results. -/
noncomputable def fusionRun (c : FusionConfig) (junk1 junk2 : SensorType × Int) (calls : List (SensorMeasurement × Int)) :
    Option (FusionState × List MotionInfo) :=
  calls.foldlM (fusionRecord c) (fusionInit junk1 junk2, [])

/-- The last orientation measurement of a list. -/
def lastOrientation (ms : List SensorMeasurement) : Option SensorMeasurement :=
  (ms.filter (fun m => m.data.type = SensorType.ORIENTATION)).getLast?

end Verif.Fusion
