import Verif.Standalone.TrilatModel

/-!
# Specification vocabulary for the standalone trilateration (C68)
-/

namespace Verif.Standalone

/-- The contract of the two sorts. -/
structure TrilatSorts.Lawful (s : TrilatSorts) : Prop where
  byName : SortsBy (fun a b : BeaconMeas => a.id < b.id) s.byName
  byDistance : SortsBy (fun a b : BeaconMeas => a.distance < b.distance) s.byDistance

/-- A measurement that enters the result: its distance and the beacon on the map. -/
structure Used where
  distance : ℝ
  beacon : Beacon

/-- The pairs that enter the result for these measurements and this map. -/
structure UsedBy (beacons : List Beacon) (meas : List BeaconMeas) (used : List Used) : Prop where
  /-- No beacon is used twice. -/
  distinct : used.Pairwise (fun p q => p.beacon.id ≠ q.beacon.id)
  /-- Every distance was measured for that beacon. -/
  measured : ∀ p ∈ used, ∃ m ∈ meas, m.id = p.beacon.id ∧ m.distance = p.distance
  /-- Every beacon is the first on the map with its id. -/
  known : ∀ p ∈ used, ∃ before after, beacons = before ++ p.beacon :: after ∧ ∀ b ∈ before, b.id ≠ p.beacon.id
  /-- No measured beacon of the map is left out. -/
  complete : ∀ m ∈ meas, (∃ b ∈ beacons, b.id = m.id) → ∃ p ∈ used, p.beacon.id = m.id

/-- The mean of a coordinate with weights inverse to the distance. -/
noncomputable def inverseMean (used : List Used) (coord : Beacon → ℝ) : ℝ :=
  (used.map (fun p => coord p.beacon / p.distance)).sum / (used.map (fun p => 1 / p.distance)).sum

end Verif.Standalone
