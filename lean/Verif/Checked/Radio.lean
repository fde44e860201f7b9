import Verif.Checked.Ops
import Verif.Knn.Model
import Verif.LevelEst.Model

/-!
# Preprocessor, level detection and fingerprint location with checked arithmetic

The definitions are those of `Verif/Radio/Model.lean`, `Verif/LevelEst/Model.lean` and `Verif/Knn/Model.lean` (which cite the
code), with the operations of `Verif/Checked/Ops.lean`; `none` is an operation outside its domain.
-/

namespace Verif.Checked

open Verif Verif.Levels
open Verif.Geo (XYPoint)
open Verif.Knn (Fingerprint SigStat RpTriangle Result)

/-! ## Preprocessor -/

/-- `measurement_preprocessor.cpp` 283-303. -/
noncomputable def averageRange (first : RadioMeasurement) (range : List RadioMeasurement) : Option RadioData := do
  let nSignals : ℝ := range.length
  let sumRssi := range.foldl (fun sum m => sum + m.data.rssi) 0
  let sumDistances := range.foldl (fun sum m => sum + m.data.distance) 0
  let rssi ← div sumRssi nSignals
  let distance ← div sumDistances nSignals
  some { first.data with rssi := rssi, distance := distance }

/-- `measurement_preprocessor.cpp` 274-305. -/
noncomputable def averageLoop : List RadioMeasurement → Option (List RadioData)
  | [] => some []
  | x :: xs => do
    let a ← averageRange x (x :: xs.takeWhile (fun m => !decide (x.data.id < m.data.id)))
    let l ← averageLoop (xs.dropWhile (fun m => !decide (x.data.id < m.data.id)))
    some (a :: l)
termination_by l => l.length
decreasing_by
  simp only [List.length_cons]
  exact Nat.lt_succ_of_le (List.dropWhile_suffix _).length_le

/-- `measurement_preprocessor.cpp` 252-338: `extractMeasurements`. -/
noncomputable def extractMeasurements (s : Radio.Sorts) (cfg : Radio.BufferCfg) (b0 : Radio.BufferState) (lastStepTs : Int) :
    Option (List RadioData × Radio.BufferState) := do
  let b1 := if lastStepTs > 0 then { b0 with lastStepTs := lastStepTs } else b0
  let since ← sub b1.currentTs b1.lastExtractionTs
  if since < cfg.shiftMs then some ([], b1)
  else
    let b2 := { b1 with lastExtractionTs := b1.currentTs, measurements := s.byId b1.measurements }
    let out ← averageLoop b2.measurements
    let still ← sub b2.currentTs b2.lastStepTs
    if cfg.useStops && decide (b2.lastStepTs > 0) && decide (still > cfg.stopMs) then some (out, b2)
    else if cfg.keepMs = 0 then some (out, { b2 with measurements := [] })
    else
      let keepFromTs ← sub b2.currentTs cfg.keepMs
      some (out, { b2 with
        measurements := (s.byTs b2.measurements).dropWhile (fun rm => !decide (rm.ts ≥ keepFromTs)) })

/-- `measurement_preprocessor.cpp` 139-155. -/
noncomputable def withDistance (cfg : Radio.Cfg) (msr : RadioData) : Option (Option RadioData) :=
  if msr.type ≠ .WIFI_RTT then
    match findLevelByTransmitterId cfg.levelIndex msr.id with
    | none => some (some msr)
    | some levelId =>
      match level cfg.levelIndex levelId with
      | none => some none
      | some l =>
        match l.transmitter msr.id with
        | none => some none
        | some t => do
          let e ← div (t.pathloss.A - msr.rssi) t.pathloss.B
          some (some { msr with distance := Real.exp e })
  else some (some { msr with distance := msr.distance - cfg.wiFiRttOffset })

/-- `measurement_preprocessor.cpp` 124-158. -/
noncomputable def extractRadioMeasurements (s : Radio.Sorts) (cfg : Radio.Cfg) (st : Radio.State) (lastStepTime : Int) :
    Option (Option (List RadioData) × Radio.State) := do
  let r ← extractMeasurements s cfg.buffer st.buffer lastStepTime
  let l ← map2 (withDistance cfg) (Radio.closestAps s cfg r.1)
  some (l, { st with buffer := r.2 })

/-- `measurement_preprocessor.cpp` 55-71. -/
noncomputable def createRadioMeasurementBuffer (cs : CommonSettings) : Option Radio.BufferCfg := do
  let sigAverageTime ← toLong (1000 * cs.sigAveragingTime)
  let sigWindowShift ← toLong (1000 * cs.sigWindowShift)
  let stopDetectTime ← toLong (1000 * cs.stopDetectionTime)
  let shift := if sigWindowShift = 0 ∨ sigWindowShift > sigAverageTime then sigAverageTime else sigWindowShift
  let keep ← sub sigAverageTime shift
  some ⟨keep, shift, stopDetectTime, 0, cs.useStops⟩

/-! ## Barometer -/

/-- `barometer.cpp` 27-36. -/
noncomputable def calcMean (l : List ℝ) : Option ℝ := if l.isEmpty then some 0 else div (l.foldl (· + ·) 0) l.length

/-- `barometer.cpp` 83-113. -/
noncomputable def updateLevel (b : LevelEst.Barometer) (levelId : String) : Option LevelEst.Barometer :=
  if b.newM.length > LevelEst.sizeOfChunk ∧ b.stored.length ≥ LevelEst.sizeOfChunk then
    if b.lastKnownLevel ≠ levelId then do
      let curMean ← calcMean b.newM
      let lastMean ← calcMean b.stored
      if curMean ≤ LevelEst.doubleEpsilon ∨ lastMean ≤ LevelEst.doubleEpsilon then some b
      else
        let ratio ← div (100 * curMean) (100 * lastMean)
        let l ← log ratio
        if |LevelEst.pascalToMeters * l| > 2 then some { b with lastKnownLevel := levelId } else some b
    else some b
  else some { b with lastKnownLevel := levelId }

/-- `barometer.cpp` 42-55. -/
noncomputable def checkLevelChange (b : LevelEst.Barometer) (levelId : String) (m : SensorMeasurement) :
    Option (String × LevelEst.Barometer) :=
  if !b.isInitialized then some (levelId, { b with isInitialized := true })
  else do
    let b1 ← updateLevel (LevelEst.updateBuffers b m) levelId
    some (b1.lastKnownLevel, b1)

/-- `level_estimator.cpp` 23-33. -/
noncomputable def calculateLevel (useBarometer : Bool) (e : LevelEst.Estimator) (detected : String) (m : SensorMeasurement) :
    Option (String × LevelEst.Estimator) :=
  let h := LevelEst.detectLevelUsingHistory e.history detected
  if useBarometer then do
    let b ← checkLevelChange e.barometer h.1 m
    some (b.1, ⟨h.2, b.2⟩)
  else some (h.1, { e with history := h.2 })

/-! ## Level by transmitters -/

/-- `level_estimator_transmitters.cpp` 21-28. -/
noncomputable def getAverageRssi (msr : List RadioData) : Option ℝ :=
  div (msr.foldl (fun a m => a + m.rssi) 0) (max msr.length 1 : ℕ)

/-- `level_estimator_transmitters.cpp` 30-41. -/
noncomputable def getAverageA (l : Level) (msr : List RadioData) : Option (Option ℝ) :=
  match msr.foldlM (fun a m => (l.transmitter m.id).map (fun t => a + t.pathloss.A)) (0 : ℝ) with
  | none => some none
  | some s => do
    let a ← div s (max msr.length 1 : ℕ)
    some (some a)

/-- `level_estimator_transmitters.cpp` 50-62. -/
noncomputable def levelCost (useTxPower : Bool) (radioMsr levelMsr : List RadioData) (l : Level) : Option (Option ℝ) :=
  bind2 (if useTxPower then getAverageA l levelMsr else some (some 0)) (fun averageA => do
    let r ← getAverageRssi levelMsr
    let averageCost := r + averageA
    let share ← div ((1 / 10) * levelMsr.length) radioMsr.length
    let weight : ℝ := 1 + share
    let cost ← div averageCost weight
    some (some cost))

/-- `level_estimator_transmitters.cpp` 48-70. -/
noncomputable def detectStepTx (useTxPower : Bool) (radioMsr : List RadioData) (best : ℝ × String) (l : Level) :
    Option (Option (ℝ × String)) :=
  let levelMsr := getLevelRadioMeasurements RadioData.id l radioMsr
  if levelMsr.isEmpty then some (some best)
  else bind2 (levelCost useTxPower radioMsr levelMsr l) (fun averageCost =>
    some (some (if averageCost > best.1 then (averageCost, l.id) else best)))

/-- `level_estimator_transmitters.cpp` 43-73. -/
noncomputable def detectByTransmitters (useTxPower : Bool) (c : LevelCollector) (radioMsr : List RadioData) :
    Option (Option String) :=
  bind2 (fold2 (detectStepTx useTxPower radioMsr) (-1000, "") c.levels) (fun r => some (some r.2))

/-! ## Fingerprints -/

/-- `knn_utils.cpp` 158-169. -/
noncomputable def trust (m : RadioData) : Option ℝ := do
  let B : ℝ := 10 * 3
  let txPower := if m.power < 1 / 100000 then -10 else m.power
  let distance := (10 : ℝ) ^ ((txPower - m.rssi) / B)
  div 1 (distance ^ (9 / 5 : ℝ))

/-- `knn_utils.cpp` 171-193. -/
noncomputable def calcTransmittersWeights (msr : List RadioData) : Option (List (String × ℝ)) := do
  let r ← msr.foldlM (fun (a : List (String × ℝ) × ℝ) m => do
    let w ← trust m
    some (StdMap.set a.1 m.id w, a.2 + w)) ([], 0)
  r.1.mapM (fun p => do let w ← div p.2 r.2; some (p.1, w))

/-- `knn_utils.cpp` 268-293. -/
noncomputable def finishWeight (n : ℕ) (acc : ℝ × ℝ) : Option ℝ :=
  if acc.1 > 1 / 100000000 then do
    let w1 ← if acc.2 > 1 / 100000000 then div acc.1 acc.2 else some acc.1
    let w2 ← sqrt w1
    let w3 ← if n > 0 then div w2 n else some w2
    div 1 w3
  else some acc.1

/-- `knn_utils.cpp` 201-297. -/
noncomputable def calcRpWeightsKnn (radiomap : List Fingerprint) (msr : List RadioData) (diffMode : Bool) :
    Option (List (String × ℝ)) := do
  let w ← calcTransmittersWeights msr
  ((Knn.rpStatistics radiomap msr).filter (fun p => !decide (p.2.length < 3))).mapM (fun p => do
    let v ← finishWeight p.2.length (Knn.accOuter w diffMode [] p.2 (0, 0))
    some (p.1, v))

/-- `knn_utils.cpp` 310-350. -/
noncomputable def calcPositionInTriangle (triangles : List RpTriangle) (rm : Radiomap) (w : List (String × ℝ)) :
    Option (Result XYPoint) :=
  match Knn.maxElement w triangles with
  | none => some .undefined
  | some t =>
    let w1 := Knn.weightOf w t.rp1
    let w2 := Knn.weightOf w t.rp2
    let w3 := Knn.weightOf w t.rp3
    let norm := w1 + w2 + w3
    if norm < Knn.doubleEpsilon then some (.ok ⟨0, 0⟩)
    else if !rm.hasReferencePoint t.rp1 || !rm.hasReferencePoint t.rp2 || !rm.hasReferencePoint t.rp3 then some (.ok ⟨0, 0⟩)
    else match rm.getReferencePoint t.rp1, rm.getReferencePoint t.rp2, rm.getReferencePoint t.rp3 with
      | some a, some b, some c => do
        let x ← div (w1 * a.point.x + w2 * b.point.x + w3 * c.point.x) norm
        let y ← div (w1 * a.point.y + w2 * b.point.y + w3 * c.point.y) norm
        some (.ok ⟨x, y⟩)
      | _, _, _ => some .throws

/-- `knn_utils.cpp` 368-391. -/
noncomputable def weightedMean (rm : Radiomap) (pts : List (String × ℝ)) : Option (Option XYPoint) :=
  match pts.foldlM (fun (a : ℝ × ℝ × ℝ) p =>
      (rm.getReferencePoint p.1).map (fun rp => (a.1 + p.2 * rp.point.x, a.2.1 + p.2 * rp.point.y, a.2.2 + p.2)))
      ((0 : ℝ), (0 : ℝ), (0 : ℝ)) with
  | none => some none
  | some (x, y, norm) =>
    if norm < Knn.doubleEpsilon then some (some ⟨0, 0⟩)
    else do
      let x ← div x norm
      let y ← div y norm
      some (some ⟨x, y⟩)

/-- `knn_utils.cpp` 352-391. -/
noncomputable def calcKHeaviest (sort : List (String × ℝ) → List (String × ℝ)) (rm : Radiomap)
    (w : List (String × ℝ)) (_k : ℕ) : Option (Option XYPoint) :=
  weightedMean rm (Knn.partialSortCopy sort w 0)

/-- `position_estimator_knn.cpp` 36-100. -/
noncomputable def knnPosition (c : Knn.Cfg) (mPosition : Position) (level : Level) (ts : Int) (msr : List RadioData) :
    Option (Result (NavigationStatus × Position)) :=
  if msr.isEmpty then some (.ok (.NO_SOLUTION, mPosition))
  else match StdMap.find? c.refTransmitters level.id with
    | none => some .throws
    | some ids =>
      let valid := Knn.getWhitelistedMeasurements ids msr
      if valid.length < c.minMsr then some (.ok (.NO_SOLUTION, mPosition))
      else match StdMap.find? c.radiomaps level.id with
        | none => some .throws
        | some signalMap => do
          let w ← calcRpWeightsKnn signalMap valid c.useDiffMode
          let done := fun (p : XYPoint) =>
            Result.ok (NavigationStatus.OK, (⟨p.x, p.y, level.id, 1, ts, false, .INDOOR, 0⟩ : Position))
          if c.useTriangles then
            match StdMap.find? c.triangles level.id with
            | none => some (.ok (.NAVIGATION_ERROR, mPosition))
            | some triangles =>
              if triangles.isEmpty then some (.ok (.NO_RPS, mPosition))
              else do
                let r ← calcPositionInTriangle triangles level.radiomap w
                match r with
                  | .undefined => some .undefined
                  | .throws => some .throws
                  | .ok p => some (done p)
          else do
            let r ← calcKHeaviest c.sort level.radiomap w c.k
            match r with
              | none => some .throws
              | some p => some (done p)

/-- `level_estimator_radiomap.cpp` 57-79. -/
noncomputable def calcWeightStep (fps : List Fingerprint) (acc : ℝ × ℕ) (m : RadioData) : Option (ℝ × ℕ) := do
  let range := fps.filter (fun f => f.tx == m.id)
  let measWeight ← range.foldlM (fun a f => do
    let d ← div 1 (|(|m.rssi| - |f.stat.mean|)| + 1 / 10)
    some (a + d)) (0 : ℝ)
  if range.length > 0 then
    let mean ← div measWeight range.length
    some (acc.1 + mean, acc.2 + 1)
  else some acc

/-- `level_estimator_radiomap.cpp` 48-83. -/
noncomputable def calcWeight (msr : List RadioData) (fps : List Fingerprint) : Option ℝ := do
  let r ← msr.foldlM (calcWeightStep fps) (0, 0)
  some (r.1 * r.2)

/-- `level_estimator_radiomap.cpp` 86-107. -/
noncomputable def calcWeightBestRp (msr : List RadioData) (fps : List Fingerprint) : Option ℝ := do
  let w ← calcRpWeightsKnn fps msr true
  some (w.foldl (fun b p => if p.2 > b then p.2 else b) 0)

/-- `level_estimator_radiomap.cpp` 31-42. -/
noncomputable def detectStepRm (useBestRp : Bool) (maps : List (String × List Fingerprint)) (msr : List RadioData)
    (best : ℝ × String) (l : Level) : Option (Option (ℝ × String)) :=
  match StdMap.find? maps l.id with
  | none => some none
  | some rm => do
    let w ← if useBestRp then calcWeightBestRp msr rm else calcWeight msr rm
    some (some (if w > best.1 then (w, l.id) else best))

/-- `level_estimator_radiomap.cpp` 26-45. -/
noncomputable def detectByRadiomap (useBestRp : Bool) (maps : List (String × List Fingerprint)) (c : LevelCollector)
    (msr : List RadioData) : Option (Option String) :=
  bind2 (fold2 (detectStepRm useBestRp maps msr) (0, "") c.levels) (fun r => some (some r.2))

end Verif.Checked
