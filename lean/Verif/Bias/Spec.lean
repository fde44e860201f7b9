import Verif.Nav.Spec
import Verif.Knn.Props

/-!
# Specification for C129: a receiver that reads every signal too strong or too weak
-/

namespace Verif.Bias

open Verif Verif.Levels Verif.Nav

/-- The same message from a receiver that reads every signal `d` dB stronger (weaker if `d` is negative). -/
noncomputable def off (d : ℝ) (m : Measurement) : Measurement :=
  match m.data with
  | .radio r => ⟨.radio { r with rssi := r.rssi + d }, m.ts⟩
  | .sensor _ => m
  | .nmea _ => m

/-- The same calls with such a receiver. -/
noncomputable def allOff (d : ℝ) (batches : List (List Measurement)) : List (List Measurement) := batches.map (List.map (off d))

/-- The offset moves no signal over the limits of the receiver: it is negative and above the cut-off with the offset iff it is
without.  (For the ranging types of measurement the limits are not used.) -/
def SameHeard (cs : CommonSettings) (d : ℝ) (m : Measurement) : Prop :=
  ∀ r, m.data = .radio r → cs.measurementType = .RSSI →
    ((r.rssi < 0 ∧ cs.sigCutOffRss < r.rssi) ↔ (r.rssi + d < 0 ∧ cs.sigCutOffRss < r.rssi + d))

/-- An algorithm that sorts by comparisons of ids, time stamps or signal strengths does not notice that all signal strengths are
moved: among elements that are equal for the comparison it makes the same choice. -/
structure OffsetBlind (s : Radio.Sorts) : Prop where
  byId : ∀ (d : ℝ) l, s.byId (l.map fun m => ⟨{ m.data with rssi := m.data.rssi + d }, m.ts⟩) =
    (s.byId l).map fun m => ⟨{ m.data with rssi := m.data.rssi + d }, m.ts⟩
  byTs : ∀ (d : ℝ) l, s.byTs (l.map fun m => ⟨{ m.data with rssi := m.data.rssi + d }, m.ts⟩) =
    (s.byTs l).map fun m => ⟨{ m.data with rssi := m.data.rssi + d }, m.ts⟩
  byRssi : ∀ (d : ℝ) l, s.byRssi (l.map fun m => { m with rssi := m.rssi + d }) = (s.byRssi l).map fun m => { m with rssi := m.rssi + d }

/-- Settings that locate by differences between signals: fingerprints in difference mode, floors by the best reference point (or
only one floor), no altitude.  Everything else is free: smoothing, stops, graph, satellites, barometer, averaging, ... -/
structure ByDifferences (ls : List Level) (cs : CommonSettings) : Prop where
  algorithm : cs.useAlgorithm = .KNN
  differences : cs.useDiffMode = true
  floors : cs.useBestRefPointLevel = true ∨ ls.length ≤ 1
  altitude : cs.useAltitude = false

end Verif.Bias
