import Verif.Levels.Model
import Verif.Input
import Verif.Position
import Verif.Settings
import Verif.Arith
import Mathlib.Analysis.SpecialFunctions.Exp
import Mathlib.Analysis.SpecialFunctions.Pow.Real

/-!
# Model of `src/position_estimator/position_estimator_zone.cpp` and
`src/position_estimator/position_estimator_outdoor.cpp`
-/

namespace Verif.Estim

open Verif.Levels
open Verif.Geo (XYPoint GeoPoint)

/-! ## Zone estimator -/

/-- `navigation_settings.h`: the path loss parameters `normalModeA`, `normalModeB` of a level. -/
structure LevelSettings where
  normalModeA : ℝ
  normalModeB : ℝ

/-- `position_estimator_zone.cpp` 18-22: the constructor loop; `none`: `at` throws because a level has
no settings. -/
def zoneParams (settings : List (String × LevelSettings)) (c : LevelCollector) :
    Option (List (String × ℝ) × List (String × ℝ)) :=
  c.levels.foldlM (fun (ab : List (String × ℝ) × List (String × ℝ)) l =>
    match StdMap.find? settings l.id with
    | none => none
    | some s => some (StdMap.set ab.1 l.id s.normalModeA, StdMap.set ab.2 l.id s.normalModeB)) ([], [])

/-- `std::max_element` with `msr1.rssi < msr2.rssi`: the first maximum. -/
noncomputable def strongest : List RadioData → Option RadioData
  | [] => none
  | m :: ms => some (ms.foldl (fun best u => if best.rssi < u.rssi then u else best) m)

/-- `position_estimator_zone.cpp` 26-76: `calculatePosition`. `mPosition` is never assigned, so it is
the default position. `A[id]`, `B[id]` read 0 for levels unknown at construction. For `B = 0` the C++
division is by zero. -/
noncomputable def zonePosition (A B : List (String × ℝ)) (level : Level) (ts : Int) (msr : List RadioData) :
    NavigationStatus × Position :=
  if msr.isEmpty then (.NO_SOLUTION, Position.default)
  else
    match strongest (getLevelRadioMeasurements RadioData.id level msr) with
    | none => (.NO_SOLUTION, Position.default)
    | some nearest =>
      let p : XYZPoint := if level.containsTransmitter nearest.id then
          match level.transmitter nearest.id with
          | some t => t.point
          | none => ⟨0, 0, 0⟩  -- unreachable: `containsTransmitter` holds
        else ⟨0, 0, 0⟩
      let a := (StdMap.find? A level.id).getD 0
      let b := (StdMap.find? B level.id).getD 0
      let precision := Real.sqrt (Real.exp ((a - nearest.rssi) ÷ b)) + 1
      (.OK, ⟨p.x, p.y, level.id, precision, ts, false, .INDOOR, 0⟩)

/-! ## Sigma filter -/

/-- `position_estimator_outdoor.cpp` 16-38: the acceptance test for a full buffer. -/
noncomputable def sigmaAccepts (window : ℕ) (delta : ℝ) (buf : List XYPoint) (p : XYPoint) : Bool :=
  let sumX := buf.foldl (fun s q => s + q.x) (0 : ℝ)
  let sumY := buf.foldl (fun s q => s + q.y) (0 : ℝ)
  let meanX := sumX ÷ window
  let meanY := sumY ÷ window
  let accX := buf.foldl (fun s q => s + (q.x - meanX) * (q.x - meanX)) (0 : ℝ)
  let accY := buf.foldl (fun s q => s + (q.y - meanY) * (q.y - meanY)) (0 : ℝ)
  let devX := 3 * root (accX ÷ window) + delta
  let devY := 3 * root (accY ÷ window) + delta
  open Classical in decide (|meanX - p.x| ≤ devX ∧ |meanY - p.y| ≤ devY)

/-- `position_estimator_outdoor.cpp` 12-44: `SigmaFilter::add`; `none`: undefined behaviour
(`pop_front` of an empty deque, line 40). The result is (accepted, new buffer). -/
noncomputable def sigmaAdd (window : ℕ) (delta : ℝ) (buf : List XYPoint) (p : XYPoint) :
    Option (Bool × List XYPoint) :=
  if buf.length = window then
    match buf with
    | [] => none
    | q :: rest => some (sigmaAccepts window delta (q :: rest) p, rest ++ [p])
  else some (false, buf ++ [p])

/-! ## Outdoor estimator -/

/-- `position_estimator_outdoor.h` 22-44: `struct GpsPosition`; an empty one is `none`. -/
structure GpsPosition where
  latitude : ℝ
  longitude : ℝ
  deviation : ℝ
  ts : Int

/-- `position_estimator_outdoor.cpp` 64-79: `extractGpsPosition`. -/
noncomputable def extractGpsPosition (s : CommonSettings) (ts : Int) (m : SensorMeasurement) : Option GpsPosition :=
  if m.data.type = .LOCATION then
    some ⟨m.data.values.x, m.data.values.y, max m.data.values.z s.minGpsDeviation, ts⟩
  else none

/-- `position_estimator_outdoor.cpp` 81-88: `extractNumberOfSatellites`. -/
def extractNumberOfSatellites (n : NmeaMeasurement) : Int :=
  if n.data.sentenceNumber = 1 ∧ n.data.satellitesNumber ≠ 0 then 0 + n.data.satellitesNumber else 0

/-- `position_estimator_outdoor.h` 81-84: the mutable members. -/
structure OutdoorState where
  last : Position
  buf : List XYPoint

/-- The state after construction. -/
noncomputable def outdoorInit : OutdoorState := ⟨Position.default, []⟩

/-- `boost::geometry::covered_by(Point, Box)`: the closed box. -/
def Box.Covers (b : Box) (p : XYPoint) : Prop :=
  b.minCorner.x ≤ p.x ∧ p.x ≤ b.maxCorner.x ∧ b.minCorner.y ≤ p.y ∧ p.y ≤ b.maxCorner.y

/-- `position_estimator_outdoor.cpp` 114-146: the loop over the levels; the first level whose
condition (118-119) holds decides. Coordinates are real, so the NaN tests are true. The result is
(returned position, new state); `none`: undefined behaviour. -/
noncomputable def outdoorLevels (s : CommonSettings) (st : OutdoorState) (g : GpsPosition) (sats : Int) :
    List Level → Option (Position × OutdoorState)
  | [] => some (Position.default, st)
  | l :: ls =>
    let point := Geo.gpsToLocal ⟨g.latitude, g.longitude⟩ l.bindingPoint
    open Classical in
    if Box.Covers l.geometry.boundingBox point ∨ s.useGpsOutsideMap = true then
      let outPos : Position := ⟨point.x, point.y, l.id, g.deviation, g.ts, false, .GNSS, 0⟩
      let check : Option (Bool × List XYPoint) :=
        if outPos.ts ≠ st.last.ts then
          if s.useGpsSigmaFilter then sigmaAdd s.sigmaFilterWindow s.sigmaFilterDelta st.buf point
          else some (true, st.buf)
        else some (true, st.buf)
      match check with
      | none => none
      | some (isValid, buf) =>
        if !isValid || (sats ≠ 0 && decide (sats < (s.minNumSats : Int))) then some (Position.default, { st with buf := buf })
        else some (outPos, ⟨outPos, buf⟩)
    else outdoorLevels s st g sats ls

/-- `position_estimator_outdoor.cpp` 90-147: `calculatePosition`. -/
noncomputable def outdoorPosition (s : CommonSettings) (c : LevelCollector) (st : OutdoorState) (ts : Int)
    (sensor : SensorMeasurement) (nmea : NmeaMeasurement) (flagIndoorPos : Bool) :
    Option (Position × OutdoorState) :=
  let gps := extractGpsPosition s ts sensor
  let sats := extractNumberOfSatellites nmea
  let tooCoarse : Prop := match gps with
    | none => False
    | some g => s.maxGpsDeviation < (g.deviation : EReal)
  let st1 : OutdoorState := open Classical in
    if flagIndoorPos = true ∨ tooCoarse then { st with buf := [] } else st
  match gps with
  | none =>
    let age : ℝ := ((ts - st1.last.ts : Int) : ℝ) / 1000
    open Classical in if age > s.gpsValidTimeWindowSec then some (Position.default, st1) else some (st1.last, st1)
  | some g => outdoorLevels s st1 g sats c.levels

end Verif.Estim
