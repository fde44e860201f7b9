import Verif.Arith
import Verif.StdMap
import Verif.Radio.Model

/-!
# Model of `src/level_estimator/{level_history,barometer,level_estimator,level_estimator_transmitters}.cpp`
-/

namespace Verif.LevelEst

open Verif.Levels

/-! ## `level_history.cpp` -/

/-- `level_history.h` 24-27: `class LevelHistory`; `std::map<LevelId, int>` as an ordered list. -/
structure History where
  current : String
  isInitialized : Bool
  floorCnt : List (String × ℕ)

/-- `level_history.cpp` 12: `MAX_LEVEL_ID_OCCUR`. -/
def maxLevelIdOccur : ℕ := 4

/-- `level_history.cpp` 14-19: the constructor. -/
def History.init : History := ⟨"", false, []⟩

/-- `std::map::operator[]` on a map with integer values: absent keys read as 0. -/
def countAt (m : List (String × ℕ)) (k : String) : ℕ := (StdMap.find? m k).getD 0

/-- `level_history.cpp` 21-41: `detectLevelUsingHistory`. -/
def detectLevelUsingHistory (h : History) (detected : String) : String × History :=
  if detected = "" then (h.current, h)
  else
    let h1 := if h.isInitialized then h else { h with isInitialized := true, current := detected }
    let c := countAt h1.floorCnt detected + 1
    let h2 := { h1 with floorCnt := StdMap.set h1.floorCnt detected c }
    let h3 : History := if c > maxLevelIdOccur then
        { h2 with floorCnt := StdMap.set [] detected maxLevelIdOccur, current := detected }
      else h2
    (h3.current, h3)

/-! ## `barometer.cpp` -/

/-- `barometer.h` 32-36: `class Barometer`. -/
structure Barometer where
  newM : List ℝ
  stored : List ℝ
  isInitialized : Bool
  lastKnownLevel : String

/-- `barometer.h` 23: the constructor. -/
def Barometer.init : Barometer := ⟨[], [], false, ""⟩

/-- `barometer.cpp` 25: `SIZE_OF_CHUNK`. -/
def sizeOfChunk : ℕ := 100

/-- `barometer.cpp` 17-21: `BAROMETER_PASCAL_TO_METERS`. -/
noncomputable def pascalToMeters : ℝ := -(831 / 100) * 288 / ((98 / 10) * (289 / 10000))

/-- `std::numeric_limits<double>::epsilon()`, i.e. 2⁻⁵². -/
noncomputable def doubleEpsilon : ℝ := (1 / 2) ^ 52

/-- `barometer.cpp` 27-36: `calcMean`. -/
noncomputable def calcMean (l : List ℝ) : ℝ := if l.isEmpty then 0 else l.foldl (· + ·) 0 ÷ l.length

theorem calcMean_div (l : List ℝ) : calcMean l = if l.isEmpty then 0 else l.foldl (· + ·) 0 / (l.length : ℝ) := by
  unfold calcMean
  cases l with
  | nil => rfl
  | cons a l => rw [divide_eq (by simp; positivity)]

/-- `barometer.cpp` 57-80: `updateBuffers` (debug output left out). -/
def updateBuffers (b : Barometer) (m : SensorMeasurement) : Barometer :=
  if m.data.type = .BAROMETER then
    let b1 := if b.stored.length > sizeOfChunk then { b with stored := b.stored.drop 1 } else b
    let b2 := if b1.newM.length > sizeOfChunk then
        { b1 with stored := b1.stored ++ b1.newM.take 1, newM := b1.newM.drop 1 } else b1
    { b2 with newM := b2.newM ++ [m.data.values.x] }
  else b

/-- `barometer.cpp` 83-113: `updateLevel`. -/
noncomputable def updateLevel (b : Barometer) (levelId : String) : Barometer :=
  if b.newM.length > sizeOfChunk ∧ b.stored.length ≥ sizeOfChunk then
    if b.lastKnownLevel ≠ levelId then
      let curMean := calcMean b.newM
      let lastMean := calcMean b.stored
      if curMean ≤ doubleEpsilon ∨ lastMean ≤ doubleEpsilon then b
      else
        let p2Pa := 100 * curMean
        let p1Pa := 100 * lastMean
        let deltaHeightM := pascalToMeters * logarithm (p2Pa ÷ p1Pa)
        if |deltaHeightM| > 2 then { b with lastKnownLevel := levelId } else b
    else b
  else { b with lastKnownLevel := levelId }

theorem updateLevel_eq (b : Barometer) (levelId : String) : updateLevel b levelId =
    if b.newM.length > sizeOfChunk ∧ b.stored.length ≥ sizeOfChunk then
      if b.lastKnownLevel ≠ levelId then
        let curMean := calcMean b.newM
        let lastMean := calcMean b.stored
        if curMean ≤ doubleEpsilon ∨ lastMean ≤ doubleEpsilon then b
        else
          let p2Pa := 100 * curMean
          let p1Pa := 100 * lastMean
          let deltaHeightM := pascalToMeters * Real.log (p2Pa / p1Pa)
          if |deltaHeightM| > 2 then { b with lastKnownLevel := levelId } else b
      else b
    else { b with lastKnownLevel := levelId } := by
  unfold updateLevel
  dsimp only
  by_cases h : calcMean b.newM ≤ doubleEpsilon ∨ calcMean b.stored ≤ doubleEpsilon
  · rw [if_pos h, if_pos h]
  · rw [if_neg h, if_neg h]
    push Not at h
    have he : 0 < doubleEpsilon := by unfold doubleEpsilon; norm_num
    have h1 := he.trans h.1
    have h2 := he.trans h.2
    rw [divide_pos (by linarith), logarithm_eq (div_pos (by linarith) (by linarith))]

/-- `barometer.cpp` 42-55: `checkLevelChange`. -/
noncomputable def checkLevelChange (b : Barometer) (levelId : String) (m : SensorMeasurement) : String × Barometer :=
  if !b.isInitialized then (levelId, { b with isInitialized := true })
  else
    let b1 := updateLevel (updateBuffers b m) levelId
    (b1.lastKnownLevel, b1)

/-! ## `level_estimator.cpp` -/

/-- `level_estimator.h` 31-33: the state of a `LevelEstimator`. -/
structure Estimator where
  history : History
  barometer : Barometer

/-- Initial state. -/
def Estimator.init : Estimator := ⟨.init, .init⟩

/-- `level_estimator.cpp` 23-33: `calculateLevel`, given the level detected from the radio
measurements (the virtual `detectCurrentLevel`). -/
noncomputable def calculateLevel (useBarometer : Bool) (e : Estimator) (detected : String) (m : SensorMeasurement) :
    String × Estimator :=
  let (withHistory, h) := detectLevelUsingHistory e.history detected
  if useBarometer then
    let (l, b) := checkLevelChange e.barometer withHistory m
    (l, ⟨h, b⟩)
  else (withHistory, { e with history := h })

/-! ## `level_estimator_transmitters.cpp` -/

/-- `level_estimator_transmitters.cpp` 21-28: `getAverageRssi`. -/
noncomputable def getAverageRssi (msr : List RadioData) : ℝ :=
  msr.foldl (fun a m => a + m.rssi) 0 ÷ (max msr.length 1 : ℕ)

/-- `level_estimator_transmitters.cpp` 30-41: `getAverageA`; `none`: `transmitter` throws. -/
noncomputable def getAverageA (l : Level) (msr : List RadioData) : Option ℝ :=
  match msr.foldlM (fun a m => (l.transmitter m.id).map (fun t => a + t.pathloss.A)) (0 : ℝ) with
  | none => none
  | some s => some (s ÷ (max msr.length 1 : ℕ))

/-- `level_estimator_transmitters.cpp` 50-62: the cost of one level; `none`: throws. -/
noncomputable def levelCost (useTxPower : Bool) (radioMsr levelMsr : List RadioData) (l : Level) : Option ℝ :=
  let averageA? := if useTxPower then getAverageA l levelMsr else some 0
  match averageA? with
  | none => none
  | some averageA =>
    let averageCost := getAverageRssi levelMsr + averageA
    let weight : ℝ := 1 + (1 / 10) * levelMsr.length ÷ radioMsr.length
    some (averageCost ÷ weight)

/-- `level_estimator_transmitters.cpp` 48-70: the loop body. -/
noncomputable def detectStep (useTxPower : Bool) (radioMsr : List RadioData) (best : ℝ × String) (l : Level) :
    Option (ℝ × String) :=
  let levelMsr := getLevelRadioMeasurements RadioData.id l radioMsr
  if levelMsr.isEmpty then some best
  else match levelCost useTxPower radioMsr levelMsr l with
    | none => none
    | some averageCost => some (if averageCost > best.1 then (averageCost, l.id) else best)

/-- `level_estimator_transmitters.cpp` 43-73: `detectCurrentLevel`; `none`: throws. -/
noncomputable def detectByTransmitters (useTxPower : Bool) (c : LevelCollector) (radioMsr : List RadioData) :
    Option String :=
  (c.levels.foldlM (detectStep useTxPower radioMsr) (-1000, "")).map Prod.snd

end Verif.LevelEst
