import Verif.Nav.Spec
import Verif.Checked.Client

/-!
# When the arithmetic of the client is defined: specification

A run with the checks of `Verif/Checked/Ops.lean` and the conditions for it never to fail one.
-/

namespace Verif.Checked

open Verif Verif.Levels
open Verif.Nav (Cfg State Garbage Output DebugState)
open Verif.Knn (Result)

/-- Several calls of `navigate` with checked arithmetic. -/
noncomputable def navigateAll (c : Cfg) : State → List (List Measurement) →
    Option (Result (State × List (Output × DebugState)))
  | s, [] => some (.ok (s, []))
  | s, b :: bs => bindR (navigate c s b) (fun r => bindR (navigateAll c r.1 bs) (fun r' => some (.ok (r'.1, r.2 ++ r'.2))))

/-- The settings. -/
structure SafeSettings (cs : CommonSettings) : Prop where
  averaging : Moderate cs.sigAveragingTime
  shift : Moderate cs.sigWindowShift
  stopDetection : Moderate cs.stopDetectionTime
  stopUpdate : Moderate cs.stopUpdateTime
  deadReckoning : Moderate cs.deadReckoningTime
  noSignal : |cs.noSignalTimeThreshold| ≤ 10 ^ 15
  noAction : |cs.noActionTimeThreshold| ≤ 10 ^ 15
  gps : 0 ≤ cs.minGpsDeviation
  prior : cs.fuseGps = true → 0 ≤ cs.priorDeviation
  speed : cs.fuseGps = true → 0 ≤ cs.averageMovSpeed

/-- The map: every transmitter has a path loss slope, no level is bound to a pole. -/
structure SafeMap (ls : List Level) : Prop where
  slope : ∀ l ∈ ls, ∀ id t, l.transmitter id = some t → t.pathloss.B ≠ 0
  latitude : ∀ l ∈ ls, |l.bindingPoint.latitude| < 90

/-- The level settings: with zone location every level has a slope. -/
def SafeZones (cs : CommonSettings) (levelSettings : List (String × Estim.LevelSettings)) (ls : List Level) : Prop :=
  cs.useAlgorithm ≠ .KNN → ∀ l ∈ ls, ∀ st, StdMap.find? levelSettings l.id = some st → st.normalModeB ≠ 0

/-- The memory that the constructors leave as it was holds time stamps in range. -/
structure SafeMemory (g : Garbage) : Prop where
  signal : Safe g.lastSignalTs
  sensor : Safe g.sensor.ts
  magn : Safe g.magn.2
  accel : Safe g.accel.2

/-- The time stamps are in range; if satellite and indoor positions are fused, the measurements come in order of time
(`taken`: those that a batch drops as outdated do not count). -/
structure SafeTimes (cs : CommonSettings) (batches : List (List Measurement)) : Prop where
  range : ∀ b ∈ batches, ∀ m ∈ b, Safe m.ts
  order : cs.fuseGps = true → Nav.Ordered (Nav.taken batches)

end Verif.Checked
