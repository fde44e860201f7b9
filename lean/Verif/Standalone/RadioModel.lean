import Verif.Standalone.EstimModel
import Verif.Radio.Model

/-!
# Model of `standalone_algorithms/position_estimation/src/measurement_preprocessor.cpp`

Paths below are relative to `standalone_algorithms/position_estimation`.
-/

namespace Verif.Standalone

open Verif.Radio (truncToInt)

/-- The three `std::sort` calls of the file, as parameters. -/
structure MsrSorts where
  /-- lines 116-120: by transmitter id -/
  byId : List Msr → List Msr
  /-- lines 164-168: by time stamp -/
  byTs : List Msr → List Msr
  /-- lines 46-50: by rssi -/
  byRssi : List Msr → List Msr

/-- What the C++ standard says about the three calls. -/
structure MsrSorts.Lawful (s : MsrSorts) : Prop where
  byId : SortsBy (fun a b : Msr => a.id < b.id) s.byId
  byTs : SortsBy (fun a b : Msr => a.ts < b.ts) s.byTs
  byRssi : SortsBy (fun a b : Msr => a.rssi < b.rssi) s.byRssi

/-- `include/measurement_preprocessor.h` 23-27: the members of a `RadioMeasurementBuffer`. -/
structure Buf where
  measurements : List Msr
  lastExtractionTs : Int
  currentTs : Int
  keepMs : Int
  shiftMs : Int

/-- `src/measurement_preprocessor.cpp` 75-81 and header 23-27: a new buffer. -/
def Buf.init (shiftMs keepMs : Int) : Buf := ⟨[], -1, -1, keepMs, shiftMs⟩

/-- `src/measurement_preprocessor.cpp` 91-101: the body of the loop. -/
def addOne (b : Buf) (m : Msr) : Buf :=
  let b1 := if m.ts > b.lastExtractionTs then { b with measurements := b.measurements ++ [m] } else b
  { b1 with currentTs := max m.ts b1.currentTs }

/-- `src/measurement_preprocessor.cpp` 83-102: `addMeasurements`. -/
def addMeasurements (b : Buf) (messageTs : Int) (msrs : List Msr) : Buf :=
  let b1 := if b.currentTs = -1 then { b with currentTs := messageTs, lastExtractionTs := messageTs } else b
  msrs.foldl addOne b1

/-- `src/measurement_preprocessor.cpp` 131-150: the average of one range. -/
noncomputable def averageMsrs (first : Msr) (range : List Msr) : Msr :=
  let nSignals : ℝ := range.length
  { first with
    rssi := range.foldl (fun sum m => sum + m.rssi) 0 ÷ nSignals
    distance := range.foldl (fun sum m => sum + m.distance) 0 ÷ nSignals }

/-- `src/measurement_preprocessor.cpp` 122-153: the grouping loop; `std::upper_bound` on the sorted remainder stops
at the first element whose id is greater. -/
noncomputable def averageMsrLoop : List Msr → List Msr
  | [] => []
  | x :: xs =>
    averageMsrs x (x :: xs.takeWhile (fun m => !decide (x.id < m.id))) ::
      averageMsrLoop (xs.dropWhile (fun m => !decide (x.id < m.id)))
termination_by l => l.length
decreasing_by
  simp only [List.length_cons]
  exact Nat.lt_succ_of_le (List.dropWhile_suffix _).length_le

/-- `src/measurement_preprocessor.cpp` 104-181: `extractMeasurements`. -/
noncomputable def extractMsrs (s : MsrSorts) (b : Buf) : List Msr × Buf :=
  if b.currentTs - b.lastExtractionTs < b.shiftMs then ([], b)
  else
    let sorted := s.byId b.measurements
    let out := averageMsrLoop sorted
    let kept := if b.keepMs = 0 then []
      else (s.byTs sorted).dropWhile (fun rm => !decide (rm.ts ≥ b.currentTs - b.keepMs))
    (out, { b with lastExtractionTs := b.currentTs, measurements := kept })

/-- `include/measurement_preprocessor.h` 46-54: the members that change, and the two switches. The other members are
constants: `mCutOffRssi` is -100, `mUseClosestAps` is true, `mNumClosestAps` is 5. -/
structure Pre where
  buffer : Buf
  currentTs : Int
  useWifi : Bool
  useBle : Bool

/-- `src/measurement_preprocessor.cpp` 9-26: the constructor. -/
noncomputable def Pre.init (sigAverageTimeSec sigWindowShiftSec : ℝ) (useWifi useBle : Bool) : Pre :=
  let sigAverageTime := truncToInt (1000 * sigAverageTimeSec)
  let sigWindowShift0 := truncToInt (1000 * sigWindowShiftSec)
  let sigWindowShift := if sigWindowShift0 = 0 ∨ sigWindowShift0 > sigAverageTime then sigAverageTime else sigWindowShift0
  ⟨Buf.init sigWindowShift (sigAverageTime - sigWindowShift), -1, useWifi, useBle⟩

/-- `src/measurement_preprocessor.cpp` 64-68. -/
def isTypeSupported (p : Pre) (t : MsrType) : Bool :=
  (decide (t = .WIFI) && p.useWifi) || (decide (t = .BEACON) && p.useBle)

open Classical in
/-- `src/measurement_preprocessor.cpp` 70-73. -/
noncomputable def isMsrRssiValid (rssi : ℝ) : Bool := decide (rssi > -100) && decide (rssi < 0)

/-- `src/measurement_preprocessor.cpp` 28-39: `update`. -/
noncomputable def update (p : Pre) (msr : Msr) : Pre :=
  let p1 := if isTypeSupported p msr.type && isMsrRssiValid msr.rssi then
    { p with buffer := addMeasurements p.buffer msr.ts [msr] } else p
  if msr.ts > p1.currentTs then { p1 with currentTs := msr.ts } else p1

/-- `src/measurement_preprocessor.cpp` 41-57: `extractRadioMeasurements`. Sorting the reversed range leaves the
vector descending; `resize` drops the tail. -/
noncomputable def extract (s : MsrSorts) (p : Pre) : List Msr × Pre :=
  let r := extractMsrs s p.buffer
  let sorted := (s.byRssi r.1.reverse).reverse
  (if sorted.length > 5 then sorted.take 5 else sorted, { p with buffer := r.2 })

end Verif.Standalone
