import Verif.Common
import Verif.Arith
import Mathlib.Tactic.Linarith

/-!
# Model of `standalone_algorithms/trilateteration/src/{beacon,trilateration}.cpp`

Only the data that reaches the result is kept: the id and place of a beacon, the id, RSSI and distance of a
measurement.  `strcmp` on ids is the order of strings (ids without NUL characters).  Output to the console, the
error text and the least squares code behind `UseOls = 0` (89-94, 281-401), which cannot run, are left out.
-/

namespace Verif.Standalone

/-- `beacon.h` 19-60: `class Beacon`. -/
structure Beacon where
  id : String
  x : ℝ
  y : ℝ

/-- `beacon.h` 89-121: `class BeaconMeas`. The pointer to the beacon is set (138) before it is read, see
`filterUnknownBeacons`. -/
structure BeaconMeas where
  id : String
  rssi : ℝ
  distance : ℝ

/-- `trilateration.h` 13-14: the values returned by `calculateCoordinates`. -/
inductive Code where
  | ok
  | ERROR_NO_SOLUTION_TRILATERATION
  | ERROR_IN_TRILATER
  deriving DecidableEq

/-- `trilateration.h` 65-68: the members; `xy = none`: the coordinates are not finite numbers. -/
structure Trilat where
  beacons : List Beacon
  meas : List BeaconMeas
  xy : Option (ℝ × ℝ)

/-- `trilateration.cpp` 20-24: the constructor. -/
noncomputable def Trilat.init : Trilat := ⟨[], [], some (0, 0)⟩

/-- `trilateration.cpp` 43-46: `updateMeasurements`. -/
def updateMeasurements (t : Trilat) (m : List BeaconMeas) : Trilat := { t with meas := m }

/-- `trilateration.cpp` 49-52: `fillLocationBeacons`. -/
def fillLocationBeacons (t : Trilat) (b : List Beacon) : Trilat := { t with beacons := b }

/-- The two `std::sort` calls: by name (212) and by distance (63). -/
structure TrilatSorts where
  byName : List BeaconMeas → List BeaconMeas
  byDistance : List BeaconMeas → List BeaconMeas

/-- Result of the search for duplicates of one measurement. -/
inductive Scan where
  /-- An entry with negative distance was met; the remaining vector. -/
  | negative (rest : List BeaconMeas)
  /-- The count, the sum of the RSSI, the remaining vector. -/
  | merged (n : ℕ) (rssi : ℝ) (rest : List BeaconMeas)

/-- `trilateration.cpp` 228-253: the inner loop over the entries after the current one; duplicates are counted,
summed and erased. The sum of the distances (242, 264) is computed by the code but not used. -/
noncomputable def scan (id : String) (n : ℕ) (rssi : ℝ) : List BeaconMeas → Scan
  | [] => .merged n rssi []
  | m :: ms =>
    if m.id = id then
      open Classical in if m.distance < 0 then .negative (m :: ms) else scan id (n + 1) (rssi + m.rssi) ms
    else match scan id n rssi ms with
      | .negative rest => .negative (m :: rest)
      | .merged k s rest => .merged k s (m :: rest)

theorem scan_length (id : String) (ms : List BeaconMeas) (n : ℕ) (rssi : ℝ) (k : ℕ) (s : ℝ) (rest : List BeaconMeas)
    (h : scan id n rssi ms = .merged k s rest) : rest.length ≤ ms.length := by
  induction ms generalizing n rssi k s rest with
  | nil => simp only [scan, Scan.merged.injEq] at h; rw [← h.2.2]
  | cons m ms ih =>
    unfold scan at h
    split_ifs at h with h1 h2
    · exact le_trans (ih _ _ _ _ _ h) (by simp)
    · cases hs : scan id n rssi ms with
      | negative r => rw [hs] at h; cases h
      | merged k' s' r =>
        rw [hs] at h
        simp only [Scan.merged.injEq] at h
        rw [← h.2.2]
        simpa using ih _ _ _ _ _ hs

/-- `trilateration.cpp` 214-267: the outer loop; the entries before the current one have other ids, so the search
from the beginning (222) finds the current one first. The second component tells whether the loop returned
`ERROR_IN_TRILATER` (237). The check at 255 never succeeds: the current entry counts. -/
noncomputable def dedup : List BeaconMeas → List BeaconMeas × Bool
  | [] => ([], false)
  | m :: ms =>
    open Classical in
    if m.distance < 0 then (m :: ms, true)
    else match _h : scan m.id 1 m.rssi ms with
      | .negative rest => (m :: rest, true)
      | .merged n s rest =>
        let r := dedup rest
        ({ m with rssi := s ÷ max (n : ℝ) 1 } :: r.1, r.2)
termination_by l => l.length
decreasing_by
  have := scan_length _ _ _ _ _ _ _ _h
  simp only [List.length_cons]
  omega

/-- `trilateration.cpp` 209-278: `deleteDuplicateMeasurements`. -/
noncomputable def deleteDuplicates (s : TrilatSorts) (meas : List BeaconMeas) : List BeaconMeas × Code :=
  let r := dedup (s.byName meas)
  if r.2 then (r.1, .ERROR_IN_TRILATER)
  else if r.1.length < 3 then (r.1, .ERROR_NO_SOLUTION_TRILATERATION)
  else (r.1, .ok)

/-- `trilateration.cpp` 416-426: `findBeaconForMeas`. -/
def findBeacon (beacons : List Beacon) (id : String) : Option Beacon := beacons.find? (fun b => b.id == id)

/-- `trilateration.cpp` 118-144: `filterUnknownBeacons`; together with the beacon the pointer is set to. -/
def filterUnknown (beacons : List Beacon) (meas : List BeaconMeas) : List (BeaconMeas × Beacon) :=
  meas.filterMap (fun m => (findBeacon beacons m.id).map (fun b => (m, b)))

/-- `trilateration.cpp` 174-204: `calculateTrilaterationCoordinates`. If a distance is zero the normalising
coefficient is infinite and the weight of that measurement is `1 / |0 · ∞|`, not a number. -/
noncomputable def accumulate (known : List (BeaconMeas × Beacon)) (xy : Option (ℝ × ℝ)) : Option (ℝ × ℝ) :=
  open Classical in
  if ∃ p ∈ known, p.1.distance = 0 then none
  else
    let norm := known.foldl (fun a p => a + 1 ÷ |p.1.distance|) 0
    known.foldl (fun a p => a.map (fun a =>
      let w := 1 ÷ |p.1.distance * norm|
      (a.1 + w * p.2.x, a.2 + w * p.2.y))) xy

/-- `trilateration.cpp` 55-101: `calculateCoordinates`. -/
noncomputable def calculateCoordinates (s : TrilatSorts) (t : Trilat) : Code × Trilat :=
  let r := deleteDuplicates s t.meas
  if r.2 ≠ .ok then (r.2, { t with meas := r.1 })
  else
    let known := filterUnknown t.beacons (s.byDistance r.1)
    let t' := { t with meas := known.map Prod.fst }
    if known.isEmpty then (.ERROR_NO_SOLUTION_TRILATERATION, t')
    else (.ok, { t' with xy := accumulate known t.xy })

end Verif.Standalone
