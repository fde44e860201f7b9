import Verif.Checked.Ops
import Verif.Post.Model

/-!
# Zone and satellite location, post-processor with checked arithmetic

The definitions are those of `Verif/Estim/Model.lean`, `Verif/Geometry/Model.lean`, `Verif/NavGraph/Model.lean`,
`Verif/Smooth/Model.lean` and `Verif/Post/Model.lean` (which cite the code), with the operations of `Verif/Checked/Ops.lean`;
`none` is an operation outside its domain.  The polynomial fit (`Verif/Smooth/Poly.lean`) is used as it is: its model already
says where a number is not finite, and the code tests for that.
-/

namespace Verif.Checked

open Verif Verif.Levels Verif.Smooth
open Verif.Geo (XYPoint GeoPoint)
open Verif.Geometry (LocationPoint)
open Verif.Post (PostState)

/-! ## Zone and satellite location -/

/-- `position_estimator_zone.cpp` 26-76. -/
noncomputable def zonePosition (A B : List (String × ℝ)) (level : Level) (ts : Int) (msr : List RadioData) :
    Option (NavigationStatus × Position) :=
  if msr.isEmpty then some (.NO_SOLUTION, Position.default)
  else
    match Estim.strongest (getLevelRadioMeasurements RadioData.id level msr) with
    | none => some (.NO_SOLUTION, Position.default)
    | some nearest => do
      let p : XYZPoint := if level.containsTransmitter nearest.id then
          match level.transmitter nearest.id with
          | some t => t.point
          | none => ⟨0, 0, 0⟩
        else ⟨0, 0, 0⟩
      let a := (StdMap.find? A level.id).getD 0
      let b := (StdMap.find? B level.id).getD 0
      let e ← div (a - nearest.rssi) b
      let r ← sqrt (Real.exp e)
      some (.OK, ⟨p.x, p.y, level.id, r + 1, ts, false, .INDOOR, 0⟩)

/-- `position_estimator_outdoor.cpp` 16-38. -/
noncomputable def sigmaAccepts (window : ℕ) (delta : ℝ) (buf : List XYPoint) (p : XYPoint) : Option Bool := do
  let sumX := buf.foldl (fun s q => s + q.x) (0 : ℝ)
  let sumY := buf.foldl (fun s q => s + q.y) (0 : ℝ)
  let meanX ← div sumX window
  let meanY ← div sumY window
  let accX := buf.foldl (fun s q => s + (q.x - meanX) * (q.x - meanX)) (0 : ℝ)
  let accY := buf.foldl (fun s q => s + (q.y - meanY) * (q.y - meanY)) (0 : ℝ)
  let varX ← div accX window
  let varY ← div accY window
  let rX ← sqrt varX
  let rY ← sqrt varY
  let devX := 3 * rX + delta
  let devY := 3 * rY + delta
  some (open Classical in decide (|meanX - p.x| ≤ devX ∧ |meanY - p.y| ≤ devY))

/-- `position_estimator_outdoor.cpp` 12-44. -/
noncomputable def sigmaAdd (window : ℕ) (delta : ℝ) (buf : List XYPoint) (p : XYPoint) :
    Option (Option (Bool × List XYPoint)) :=
  if buf.length = window then
    match buf with
    | [] => some none
    | q :: rest => do
      let ok ← sigmaAccepts window delta (q :: rest) p
      some (some (ok, rest ++ [p]))
  else some (some (false, buf ++ [p]))

/-- `position_estimator_outdoor.cpp` 114-146. -/
noncomputable def outdoorLevels (s : CommonSettings) (st : Estim.OutdoorState) (g : Estim.GpsPosition) (sats : Int) :
    List Level → Option (Option (Position × Estim.OutdoorState))
  | [] => some (some (Position.default, st))
  | l :: ls =>
    let point := Geo.gpsToLocal ⟨g.latitude, g.longitude⟩ l.bindingPoint
    open Classical in
    if Estim.Box.Covers l.geometry.boundingBox point ∨ s.useGpsOutsideMap = true then
      let outPos : Position := ⟨point.x, point.y, l.id, g.deviation, g.ts, false, .GNSS, 0⟩
      bind2 (if outPos.ts ≠ st.last.ts then
          if s.useGpsSigmaFilter then sigmaAdd s.sigmaFilterWindow s.sigmaFilterDelta st.buf point
          else some (some (true, st.buf))
        else some (some (true, st.buf))) (fun r =>
        if !r.1 || (sats ≠ 0 && decide (sats < (s.minNumSats : Int))) then
          some (some (Position.default, { st with buf := r.2 }))
        else some (some (outPos, ⟨outPos, r.2⟩)))
    else outdoorLevels s st g sats ls

open Classical in
/-- `position_estimator_outdoor.cpp` 90-147. -/
noncomputable def outdoorPosition (s : CommonSettings) (c : LevelCollector) (st : Estim.OutdoorState) (ts : Int)
    (sensor : SensorMeasurement) (nmea : NmeaMeasurement) (flagIndoorPos : Bool) :
    Option (Option (Position × Estim.OutdoorState)) :=
  let gps := Estim.extractGpsPosition s ts sensor
  let sats := Estim.extractNumberOfSatellites nmea
  let tooCoarse : Prop := match gps with
    | none => False
    | some g => s.maxGpsDeviation < (g.deviation : EReal)
  let st1 : Estim.OutdoorState := open Classical in
    if flagIndoorPos = true ∨ tooCoarse then { st with buf := [] } else st
  match gps with
  | none => do
    let d ← sub ts st1.last.ts
    let age : ℝ := (d : ℝ) / 1000
    if age > s.gpsValidTimeWindowSec then some (some (Position.default, st1)) else some (some (st1.last, st1))
  | some g => outdoorLevels s st1 g sats c.levels

/-! ## Geometry -/

/-- `src/geometry.cpp` 8-11. -/
noncomputable def getDist (ax ay bx by' : ℝ) : Option ℝ := sqrt ((ax - bx) * (ax - bx) + (ay - by') * (ay - by'))

/-- `src/geometry.cpp` 93-108. -/
noncomputable def getProjection (ax ay bx by' ox oy : ℝ) : Option (ℝ × XYPoint) := do
  let ab := (bx - ax) * (bx - ax) + (by' - ay) * (by' - ay)
  let ao := (ox - ax) * (bx - ax) + (oy - ay) * (by' - ay)
  let k ← if ab > Geometry.eps then div ao ab else some 0
  some (k, ⟨ax + k * (bx - ax), ay + k * (by' - ay)⟩)

/-- `position_postprocessor.cpp` 129-138. -/
noncomputable def edgeProjection (p : LocationPoint) (u v : XYPoint) : Option LocationPoint := do
  let r ← getProjection u.x u.y v.x v.y p.x p.y
  some (if r.1 < 0 then ⟨p.level, u.x, u.y⟩
    else if r.1 > 1 then ⟨p.level, v.x, v.y⟩
    else ⟨p.level, r.2.x, r.2.y⟩)

/-- `position_postprocessor.cpp` 127-147. -/
noncomputable def projLoop (g : NavGraph.Graph XYPoint) (p : LocationPoint) :
    List (Int ×ₗ Int) → LocationPoint × Option ℝ → Option (Option (LocationPoint × Option ℝ))
  | [], acc => some (some acc)
  | e :: es, (p0, d0) =>
    match NavGraph.getVertex g (ofLex e).1, NavGraph.getVertex g (ofLex e).2 with
    | some u, some v => do
      let p1 ← edgeProjection p u.point v.point
      let d ← getDist p.x p.y p1.x p1.y
      match d0 with
      | none => projLoop g p es (p1, some d)
      | some d0' => if d < d0' then projLoop g p es (p1, some d) else projLoop g p es (p0, some d0')
    | _, _ => some none

/-- `position_postprocessor.cpp` 121-150. -/
noncomputable def projectOnGraph (g : NavGraph.Graph XYPoint) (p : LocationPoint) : Option (Option LocationPoint) :=
  bind2 (projLoop g p g.edges (p, none)) (fun r => some (some r.1))

/-! ## Smoothers -/

/-- `position_smoother_ab.cpp` 31-37. -/
noncomputable def abGain (P : AbParams) (s : AbState) (pos : Position) : Option ℝ :=
  if P.useAccuracyForSmoothing then do
    let r ← div s.position.deviationM (pos.deviationM + s.position.deviationM + 1 / 2)
    some (min (max MIN_ALPHA r) MAX_ALPHA)
  else some P.alpha

open Classical in
/-- `position_smoother_ab.cpp` 25-85. -/
noncomputable def abSmooth (P : AbParams) (allowed : ℝ → ℝ → Prop) (s : AbState) (pos : Position) :
    Option (Position × AbState) :=
  if pos.ts > s.position.ts then do
    let d ← sub pos.ts s.position.ts
    let t : ℝ := (d : ℝ) / 1000
    let a ← abGain P s pos
    let b ← div (a * a) (2 - a)
    let k ← div b t
    let xp := s.position.x + s.speedX * t
    let vxp := s.speedX + k * (pos.x - xp)
    let xs := xp + a * (pos.x - xp)
    let yp := s.position.y + s.speedY * t
    let vyp := s.speedY + k * (pos.y - yp)
    let ys := yp + a * (pos.y - yp)
    let velocity ← sqrt (vxp * vxp + vyp * vyp)
    let timeIsTooLong := t > TIME_THRESHOLD_SEC
    let velocityIsTooFast := P.useSpeedConstraint = true ∧ velocity > MAX_OBJECT_VELOCITY_MPS
    let isInsideBarrier := P.useBarriers = true ∧ ¬ allowed xs ys
    if s.wasCalled = false ∨ timeIsTooLong ∨ velocityIsTooFast ∨ isInsideBarrier then
      some (pos, ⟨true, 0, 0, pos⟩)
    else
      let pos' := { pos with x := xs, y := ys }
      let dev := if P.useAccuracyForSmoothing then
          (1 - a) * (pos'.deviationM + t * velocity) + a * pos'.deviationM
        else pos'.deviationM
      let pos'' := { pos' with deviationM := dev }
      some (pos'', ⟨s.wasCalled, vxp, vyp, pos''⟩)
  else some (s.position, s)

open Classical in
/-- `position_smoother_lstsq.cpp` 18-49. -/
noncomputable def lsSmooth (P : FitParams) (useBarriers : Bool) (allowed : ℝ → ℝ → Prop) (s : LsState)
    (pos : Position) : Option (Option (Position × LsState)) :=
  if s.wasCalled = false then some (some (pos, { s with startTime := pos.ts, wasCalled := true }))
  else do
    let d ← sub pos.ts s.startTime
    let t : ℝ := (d : ℝ) / 1000
    match addSequencePoint P s.fitX t pos.x, addSequencePoint P s.fitY t pos.y with
    | some fx, some fy =>
      let px := predict P fx t
      let py := predict P fy t
      let s' : LsState := { s with fitX := px.2, fitY := py.2 }
      let inside : Prop := ∃ x y, px.1 = some x ∧ py.1 = some y ∧ allowed x y
      if useBarriers = true ∧ ¬ inside then
        some (some (pos, { s' with fitX := fitClear s'.fitX, fitY := fitClear s'.fitY, startTime := pos.ts }))
      else
        match px.1, py.1 with
        | some x, some y => some (some ({ pos with x := x, y := y }, s'))
        | _, _ => some (some (pos, s'))
    | _, _ => some none

/-- `navigation_time_smoother.cpp` 48-65. -/
noncomputable def timeInterpolate (s : TimeState) (last : Position) (currentTs : Int) : Option Position :=
  if s.next.ts = s.prev.ts then some s.next
  else do
    let actual ← sub currentTs s.next.ts
    let kept ← sub s.next.ts s.prev.ts
    let actualTsDiff : ℝ := (actual : ℝ)
    let keptTsDiff : ℝ := (kept : ℝ)
    if actualTsDiff > keptTsDiff then some last
    else
      let x ← div (s.next.x * actualTsDiff + s.prev.x * (keptTsDiff - actualTsDiff)) keptTsDiff
      let y ← div (s.next.y * actualTsDiff + s.prev.y * (keptTsDiff - actualTsDiff)) keptTsDiff
      some { s.next with x := x, y := y, ts := currentTs }

/-- `navigation_time_smoother.cpp` 23-66. -/
noncomputable def timeSmooth (s : TimeState) (last : Position) (currentTs : Int) : Option (Position × TimeState) :=
  if currentTs < last.ts then some (last, s)
  else if s.prev.levelId ≠ last.levelId ∨ s.next.levelId ≠ last.levelId then some (last, ⟨last, last⟩)
  else if s.prev.isEmpty ∨ s.next.isEmpty ∨ last.isEmpty then some (last, ⟨s.next, last⟩)
  else do
    let s' : TimeState := if last.ts > s.next.ts then ⟨s.next, last⟩ else s
    let p ← timeInterpolate s' last currentTs
    some (p, s')

/-! ## Post-processor -/

/-- The virtual `smoothPosition`. -/
noncomputable def smooth (allowed : ℝ → ℝ → Prop) : Post.Smoother → Position → Option (Option (Position × Post.Smoother))
  | .ab P s, pos => do
    let r ← abSmooth P allowed s pos
    some (some (r.1, .ab P r.2))
  | .ls P ub s, pos => bind2 (lsSmooth P ub allowed s pos) (fun r => some (some (r.1, .ls P ub r.2)))

/-- `position_postprocessor.cpp` 58, 65. -/
noncomputable def priorDev (cs : CommonSettings) (stored given : Position) (dev : ℝ) : Option ℝ :=
  if stored.isEmpty then some cs.priorDeviation
  else do
    let d ← sub given.ts stored.ts
    some (min cs.priorDeviation (dev + cs.averageMovSpeed * (d : ℝ) / 1000))

/-- `position_postprocessor.cpp` 56-61. -/
noncomputable def fillIndoor (cs : CommonSettings) (s : PostState) (indoor : Position) : Option PostState :=
  if indoor.isEmpty then some s
  else do
    let d ← priorDev cs s.indoorPos indoor s.indoorDev
    some { s with indoorPos := indoor, indoorDev := (d + indoor.deviationM) / 2 }

/-- `position_postprocessor.cpp` 63-68. -/
noncomputable def fillOutdoor (cs : CommonSettings) (s : PostState) (outdoor : Position) : Option PostState :=
  if outdoor.isEmpty then some s
  else do
    let d ← priorDev cs s.outdoorPos outdoor s.outdoorDev
    some { s with outdoorPos := outdoor, outdoorDev := (d + outdoor.deviationM) / 2 }

/-- `position_postprocessor.cpp` 92-93. -/
noncomputable def delay (curTs : Int) (p : Position) : Option ℝ :=
  if curTs ≥ p.ts then do
    let d ← sub curTs p.ts
    some ((d : ℝ) / 1000)
  else some 0

/-- `position_postprocessor.cpp` 79-118. -/
noncomputable def chooseFused (cs : CommonSettings) (s : PostState) (curTs : Int) (indoor outdoor : Position)
    (status : NavigationStatus) : Option Position :=
  if cs.useInstantGpsPosition = true ∧ outdoor.isEmpty = false then some outdoor
  else if cs.preferIndoorSolution = true ∧ indoor.isEmpty = false ∧ status = .OK then some indoor
  else if cs.useGps = false ∨ s.outdoorPos.isEmpty = true then some s.indoorPos
  else if s.indoorPos.isEmpty = true then some s.outdoorPos
  else do
    let indoorDelay ← delay curTs s.indoorPos
    let outdoorDelay ← delay curTs s.outdoorPos
    if indoorDelay > cs.positionIsTooOldSec then some s.outdoorPos
    else if outdoorDelay > cs.positionIsTooOldSec then some s.indoorPos
    else
      let indoorDev := cs.averageMovSpeed * indoorDelay + s.indoorDev
      let outdoorDev := cs.averageMovSpeed * outdoorDelay + s.outdoorDev
      let positionsDist ← getDist s.indoorPos.x s.indoorPos.y s.outdoorPos.x s.outdoorPos.y
      let accuracyDist := s.indoorPos.deviationM + s.outdoorPos.deviationM + cs.fuseGpsBorderM
      if cs.fuseGps = true ∧ accuracyDist > positionsDist then
        let x ← div (s.indoorPos.x * outdoorDev + s.outdoorPos.x * indoorDev) (outdoorDev + indoorDev)
        let y ← div (s.indoorPos.y * outdoorDev + s.outdoorPos.y * indoorDev) (outdoorDev + indoorDev)
        some { s.indoorPos with
          ts := max s.indoorPos.ts s.outdoorPos.ts
          x := x
          y := y
          deviationM := min indoorDev outdoorDev
          provider := .FUSED }
      else if indoorDev < outdoorDev then some s.indoorPos else some s.outdoorPos

/-- `position_postprocessor.cpp` 71-119. -/
noncomputable def fusePositions (cs : CommonSettings) (s : PostState) (curTs : Int) (indoor outdoor : Position)
    (status : NavigationStatus) : Option (Position × PostState) := do
  let s1 ← fillIndoor cs s indoor
  let s2 ← fillOutdoor cs s1 outdoor
  let p ← chooseFused cs s2 curTs indoor outdoor status
  some (p, s2)

/-- `position_postprocessor.cpp` 178-186. -/
noncomputable def smoothing (cs : CommonSettings) (allowed : ℝ → ℝ → Prop) (s : PostState) (fused : Position)
    (ts : Int) : Option (Option (Position × PostState)) :=
  bind2 (if cs.useSmoothing then
      let sm := if s.lastOut.levelId ≠ fused.levelId then s.smoother.reset fused else s.smoother
      bind2 (smooth allowed sm fused) (fun r => some (some (r.1, { s with smoother := r.2 })))
    else some (some (fused, s))) (fun r =>
    if cs.useTimeSmoothing then do
      let t ← timeSmooth r.2.time r.1 ts
      some (some (t.1, { r.2 with time := t.2 }))
    else some (some r))

open Classical in
/-- `position_postprocessor.cpp` 190-213. -/
noncomputable def takeOver (cs : CommonSettings) (s : PostState) (result : Position) (ts : Int) : Option PostState := do
  let dist ← getDist s.lastOut.x s.lastOut.y result.x result.y
  let stopDetectionTimeMs ← toLong (1000 * cs.stopDetectionTime)
  let stopUpdateTimeMs ← toLong (1000 * cs.stopUpdateTime)
  let sinceStep ← sub ts s.lastStepTs
  let sinceExtraction ← sub ts s.lastExtractionTs
  if cs.useStops = true ∧ s.lastStepTs > 0 ∧ sinceStep ≥ stopDetectionTimeMs then
    if sinceExtraction > stopUpdateTimeMs ∧ dist < cs.useStopsDistanceThresholdM then
      some { s with lastExtractionTs := ts, lastOut := { result with ts := ts } }
    else some { s with lastOut := { s.lastOut with ts := ts } }
  else some { s with lastOut := { result with ts := ts, deviationM := s.indoorPos.deviationM } }

open Classical in
/-- `position_postprocessor.cpp` 217-228. -/
noncomputable def snapToGraph (cs : CommonSettings) (level : Level) (p : Position) : Option (Option Position) :=
  if cs.useGraphProjection then
    let p1 : LocationPoint := ⟨p.levelId, p.x, p.y⟩
    bind2 (projectOnGraph level.graph p1) (fun p2 =>
      if p1.level = p2.level then do
        let distance ← getDist p1.x p1.y p2.x p2.y
        some (some (if distance < cs.graphProjDist then { p with x := p2.x, y := p2.y } else p))
      else some (some p))
  else some (some p)

open Classical in
/-- `position_postprocessor.cpp` 159-241. -/
noncomputable def getProcessedPosition (cs : CommonSettings) (allowed : ℝ → ℝ → Prop) (s : PostState)
    (fused : Position) (ts : Int) (lastMotionTs : Int) (level : Level) : Option (Option (Position × PostState)) :=
  let s := if lastMotionTs > 0 then { s with lastStepTs := lastMotionTs } else s
  if fused.isEmpty = true then some (some (Position.default, s))
  else if ¬ Post.isInsideMap cs fused level then some (some (Position.default, s))
  else do
    let age ← sub ts fused.ts
    let deadReckonTimeMs ← toLong (1000 * cs.deadReckoningTime)
    if age ≥ deadReckonTimeMs then some (some (Position.default, s))
    else
      bind2 (smoothing cs allowed s fused ts) (fun r => do
        let s' ← takeOver cs r.2 r.1 ts
        bind2 (snapToGraph cs level s'.lastOut) (fun p =>
          let out := Post.fitInBox level.geometry.boundingBox p
          some (some (out, { s' with lastOut := out }))))

end Verif.Checked
