import Verif.Standalone.TrilatModel

/-!
# Model of `standalone_algorithms/trilateteration/src/test_trilateration.cpp`

Decimal literals are the real numbers they denote; the comparison with them is exact.
-/

namespace Verif.Standalone

/-- `test_trilateration.cpp` 36-46: the beacons of the map. -/
noncomputable def testBeacons : List Beacon :=
  [⟨"(53580,22667,F7826DA6-4FA2-4E98-8024-BC5B71E0893E)", 5469 / 100, 2951 / 100⟩,
   ⟨"(49599,56896,F7826DA6-4FA2-4E98-8024-BC5B71E0893E)", 5468 / 100, 2951 / 100⟩,
   ⟨"(57506,19633,F7826DA6-4FA2-4E98-8024-BC5B71E0893E)", 4905 / 100, 3216 / 100⟩]

/-- `test_trilateration.cpp` 49-74: the measurements; the last is of an unknown beacon. -/
noncomputable def testMeas : List BeaconMeas :=
  [⟨"(53580,22667,F7826DA6-4FA2-4E98-8024-BC5B71E0893E)", -(8657 / 100), 447 / 100⟩,
   ⟨"(49599,56896,F7826DA6-4FA2-4E98-8024-BC5B71E0893E)", -(9080 / 100), 1413 / 100⟩,
   ⟨"(57506,19633,F7826DA6-4FA2-4E98-8024-BC5B71E0893E)", -(8641 / 100), 1585 / 100⟩,
   ⟨"22211,00231", -(2141 / 100), 1585 / 100⟩]

/-- `test_trilateration.cpp` 25-26, 83-89: a new object, the measurements and the map are set, the coordinates are
calculated. -/
noncomputable def testRun (s : TrilatSorts) (beacons : List Beacon) (meas : List BeaconMeas) : Code × Trilat :=
  calculateCoordinates s (fillLocationBeacons (updateMeasurements Trilat.init meas) beacons)

/-- `test_trilateration.cpp` 92-104: does the program print "test passed!"?  A coordinate that is not a number differs
from the literal. -/
def testPassed (r : Code × Trilat) : Prop :=
  ¬ ((∀ x y, r.2.xy = some (x, y) → x ≠ 53692 / 1000) ∧ (∀ x y, r.2.xy = some (x, y) → y ≠ 29977 / 1000) ∧ r.1 ≠ .ok)

end Verif.Standalone
