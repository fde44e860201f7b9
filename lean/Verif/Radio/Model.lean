import Verif.Common
import Verif.Input
import Verif.Settings
import Verif.Arith
import Verif.Levels.Model
import Mathlib.Analysis.SpecialFunctions.Log.Basic
import Mathlib.Algebra.Order.Floor.Ring

/-!
# Model of `src/measurements/measurement_preprocessor.{h,cpp}`
-/

namespace Verif.Radio

open Verif.Levels

/-- C++ conversion `(long long)x` of a double: truncation towards zero. -/
noncomputable def truncToInt (x : ℝ) : Int := if 0 ≤ x then ⌊x⌋ else ⌈x⌉

/-- The three `std::sort` calls of the file, as parameters. -/
structure Sorts where
  /-- lines 268-272: by transmitter id -/
  byId : List RadioMeasurement → List RadioMeasurement
  /-- lines 321-325: by time stamp -/
  byTs : List RadioMeasurement → List RadioMeasurement
  /-- lines 129-133: by rssi -/
  byRssi : List RadioData → List RadioData

/-- What the C++ standard says about the three calls. -/
structure Sorts.Lawful (s : Sorts) : Prop where
  byId : SortsBy (fun a b : RadioMeasurement => a.data.id < b.data.id) s.byId
  byTs : SortsBy (fun a b : RadioMeasurement => a.ts < b.ts) s.byTs
  byRssi : SortsBy (fun a b : RadioData => a.rssi < b.rssi) s.byRssi

/-- `measurement_preprocessor.h` 35-39: the constants of a `RadioMeasurementBuffer`. -/
structure BufferCfg where
  keepMs : Int
  shiftMs : Int
  stopMs : Int
  bias : ℝ
  useStops : Bool

/-- `measurement_preprocessor.h` 41-45: the variables of a `RadioMeasurementBuffer`. -/
structure BufferState where
  lastExtractionTs : Int
  currentTs : Int
  lastStepTs : Int
  measurements : List RadioMeasurement

/-- `measurement_preprocessor.cpp` 232-234 and header 45: initial values. -/
def BufferState.init : BufferState := ⟨0, 0, 0, []⟩

/-- `measurement_preprocessor.cpp` 237-250: `addMeasurement`. -/
noncomputable def addMeasurement (cfg : BufferCfg) (b : BufferState) (msr : RadioMeasurement) : BufferState :=
  let b1 := if b.currentTs = 0 then { b with currentTs := msr.ts, lastExtractionTs := msr.ts } else b
  { b1 with
    measurements := b1.measurements ++ [{ msr with data := { msr.data with rssi := msr.data.rssi + cfg.bias } }]
    currentTs := msr.ts }

/-- `measurement_preprocessor.cpp` 283-303: average the range of one transmitter, whose first
element is `first`. The accumulations are left folds from `0.0`, the count is converted to double. -/
noncomputable def averageRange (first : RadioMeasurement) (range : List RadioMeasurement) : RadioData :=
  let nSignals : ℝ := range.length
  let sumRssi := range.foldl (fun sum m => sum + m.data.rssi) 0
  let sumDistances := range.foldl (fun sum m => sum + m.data.distance) 0
  { first.data with rssi := sumRssi ÷ nSignals, distance := sumDistances ÷ nSignals }

/-- `measurement_preprocessor.cpp` 274-305: the grouping loop. `std::upper_bound` on the sorted
remainder stops at the first element whose id is greater than the first one's id. -/
noncomputable def averageLoop : List RadioMeasurement → List RadioData
  | [] => []
  | x :: xs =>
    averageRange x (x :: xs.takeWhile (fun m => !decide (x.data.id < m.data.id))) ::
      averageLoop (xs.dropWhile (fun m => !decide (x.data.id < m.data.id)))
termination_by l => l.length
decreasing_by
  simp only [List.length_cons]
  exact Nat.lt_succ_of_le (List.dropWhile_suffix _).length_le

/-- `measurement_preprocessor.cpp` 252-338: `extractMeasurements`. -/
noncomputable def extractMeasurements (s : Sorts) (cfg : BufferCfg) (b0 : BufferState) (lastStepTs : Int) :
    List RadioData × BufferState :=
  let b1 := if lastStepTs > 0 then { b0 with lastStepTs := lastStepTs } else b0
  if b1.currentTs - b1.lastExtractionTs < cfg.shiftMs then ([], b1)
  else
    let b2 := { b1 with lastExtractionTs := b1.currentTs, measurements := s.byId b1.measurements }
    let out := averageLoop b2.measurements
    if cfg.useStops && decide (b2.lastStepTs > 0) && decide (b2.currentTs - b2.lastStepTs > cfg.stopMs) then
      (out, b2)
    else if cfg.keepMs = 0 then (out, { b2 with measurements := [] })
    else
      let keepFromTs := b2.currentTs - cfg.keepMs
      (out, { b2 with
        measurements := (s.byTs b2.measurements).dropWhile (fun rm => !decide (rm.ts ≥ keepFromTs)) })

/-- `measurement_preprocessor.cpp` 35-43: `checkUseWifi`; the enum has no fourth value, so the
default of line 42 is unreachable. -/
def checkUseWifi (cs : CommonSettings) : Bool :=
  if cs.signalsToUse = .WIFI ∨ cs.signalsToUse = .BOTH then true
  else if cs.signalsToUse = .BLE then false
  else false

/-- `measurement_preprocessor.cpp` 45-53: `checkUseBle`. -/
def checkUseBle (cs : CommonSettings) : Bool :=
  if cs.signalsToUse = .BLE ∨ cs.signalsToUse = .BOTH then true
  else if cs.signalsToUse = .WIFI then false
  else true

/-- `measurement_preprocessor.cpp` 55-71: `createRadioMeasurementBuffer`. -/
noncomputable def createRadioMeasurementBuffer (cs : CommonSettings) : BufferCfg :=
  let sigAverageTime := truncToInt (1000 * cs.sigAveragingTime)
  let sigWindowShift := truncToInt (1000 * cs.sigWindowShift)
  let stopDetectTime := truncToInt (1000 * cs.stopDetectionTime)
  let shift := if sigWindowShift = 0 ∨ sigWindowShift > sigAverageTime then sigAverageTime else sigWindowShift
  ⟨sigAverageTime - shift, shift, stopDetectTime, 0, cs.useStops⟩

/-- `measurement_preprocessor.h` 76-85: the constants of a `MeasurementsPreprocessor`. -/
structure Cfg where
  levelIndex : LevelCollector
  wiFiRttOffset : ℝ
  cutOffRssi : ℝ
  useClosestAps : Bool
  numClosestAps : ℕ
  useUnknownTxs : Bool
  measurementType : MeasurementType
  useWifi : Bool
  useBle : Bool
  isTracking : Bool
  buffer : BufferCfg

/-- `measurement_preprocessor.h` 86-92: the variables of a `MeasurementsPreprocessor`. -/
structure State where
  lastSignalTs : Int
  buffer : BufferState
  currentTs : Int
  sensor : SensorMeasurement
  nmea : NmeaMeasurement

/-- `measurement_preprocessor.cpp` 75-90: the constructor, constant part. -/
noncomputable def mkCfg (c : LevelCollector) (cs : CommonSettings) : Cfg where
  levelIndex := c
  wiFiRttOffset := cs.wiFiRttOffset
  cutOffRssi := cs.sigCutOffRss
  useClosestAps := cs.useClosestAps
  numClosestAps := cs.numClosestAps
  useUnknownTxs := cs.useUnknownTransmitters
  measurementType := cs.measurementType
  useWifi := checkUseWifi cs
  useBle := checkUseBle cs
  isTracking := cs.useTracking
  buffer := createRadioMeasurementBuffer cs

/-- `measurement_preprocessor.cpp` 75-90: the constructor, variable part. `mLastSignalTs`, the
sensor and the NMEA members are not initialised by the code: their initial contents are arbitrary. -/
def State.init (garbageTs : Int) (garbageSensor : SensorMeasurement) (garbageNmea : NmeaMeasurement) : State :=
  ⟨garbageTs, .init, 0, garbageSensor, garbageNmea⟩

/-- `measurement_preprocessor.cpp` 189-196. -/
def isSignalTypeSupported (cfg : Cfg) (t : RadioType) : Bool :=
  (decide (t = .WIFI) && cfg.useWifi) || (decide (t = .BEACON) && cfg.useBle) ||
  (decide (t = .BLUETOOTH) && cfg.useBle) || (decide (t = .EDDYSTONE) && cfg.useBle) ||
  (decide (t = .WIFI_RTT) && cfg.useWifi)

/-- `measurement_preprocessor.cpp` 198-201. -/
noncomputable def isRssiValid (cfg : Cfg) (rssi : ℝ) : Bool := decide (rssi < 0) && decide (rssi > cfg.cutOffRssi)

/-- `measurement_preprocessor.cpp` 203-219. The two `at` calls cannot throw: they are guarded. -/
def isTransmitterSupported (cfg : Cfg) (tx : String) : Bool :=
  match findLevelByTransmitterId cfg.levelIndex tx with
  | none => false
  | some levelId =>
    if !hasLevel cfg.levelIndex levelId then false
    else match level cfg.levelIndex levelId with
      | none => false  -- unreachable: guarded by hasLevel (C12)
      | some l =>
        if !l.containsTransmitter tx then false
        else match l.transmitter tx with
          | none => false  -- unreachable: guarded by containsTransmitter
          | some t => if cfg.isTracking then decide (t.type = .LOCATOR) else decide (t.type ≠ .LOCATOR)

/-- `measurement_preprocessor.cpp` 170-187: `getValidSignalEntry`. -/
noncomputable def getValidSignalEntry (cfg : Cfg) (entry : RadioData) : Option RadioData :=
  let v0 := cfg.useUnknownTxs ||
    ((findLevelByTransmitterId cfg.levelIndex entry.id).isSome && isTransmitterSupported cfg entry.id)
  let v1 := if cfg.measurementType ≠ .RSSI ∧ entry.type ≠ .WIFI_RTT then false else v0
  let v2 := if cfg.measurementType = .RSSI ∧ isRssiValid cfg entry.rssi = false then false else v1
  if v2 && isSignalTypeSupported cfg entry.type then some entry else none

/-- `measurement_preprocessor.cpp` 92-122: `updateMeasurements` with the three visitors. -/
noncomputable def updateMeasurements (cfg : Cfg) (st0 : State) (msg : Measurement) : State :=
  let st := { st0 with currentTs := msg.ts }
  match msg.data with
  | .radio d =>
    match getValidSignalEntry cfg d with
    | some v => { st with buffer := addMeasurement cfg.buffer st.buffer ⟨v, st.currentTs⟩, lastSignalTs := st.currentTs }
    | none => st
  | .sensor d => { st with sensor := ⟨d, st.currentTs⟩ }
  | .nmea d => { st with nmea := ⟨d, st.currentTs⟩ }

/-- `measurement_preprocessor.cpp` 127-137: keep the `N` strongest entries. Sorting the reversed
range ascending leaves the vector descending; `resize` then drops the tail. -/
def closestAps (s : Sorts) (cfg : Cfg) (msrs : List RadioData) : List RadioData :=
  if cfg.useClosestAps then
    let sorted := (s.byRssi msrs.reverse).reverse
    if sorted.length > cfg.numClosestAps then sorted.take cfg.numClosestAps else sorted
  else msrs

/-- `measurement_preprocessor.cpp` 139-155: the distance of one entry; `none`: `at` throws (possible
only when two levels share an id, C13). -/
noncomputable def withDistance (cfg : Cfg) (msr : RadioData) : Option RadioData :=
  if msr.type ≠ .WIFI_RTT then
    match findLevelByTransmitterId cfg.levelIndex msr.id with
    | none => some msr
    | some levelId =>
      match level cfg.levelIndex levelId with
      | none => none
      | some l =>
        match l.transmitter msr.id with
        | none => none
        | some t => some { msr with distance := Real.exp ((t.pathloss.A - msr.rssi) ÷ t.pathloss.B) }
  else some { msr with distance := msr.distance - cfg.wiFiRttOffset }

/-- `measurement_preprocessor.cpp` 124-158: `extractRadioMeasurements`; the data is `none` if it throws. -/
noncomputable def extractRadioMeasurements (s : Sorts) (cfg : Cfg) (st : State) (lastStepTime : Int) :
    Option (List RadioData) × State :=
  let r := extractMeasurements s cfg.buffer st.buffer lastStepTime
  ((closestAps s cfg r.1).mapM (withDistance cfg), { st with buffer := r.2 })

/-- `transmitter.h` 18-21: the path-loss model, rssi as a function of the distance. -/
noncomputable def pathlossRssi (p : PathlossModel) (r : ℝ) : ℝ := p.A - p.B * logarithm (max r (1 / 100))

end Verif.Radio
