import Verif.Radio.Model
import Verif.LevelEst.Model
import Verif.Estim.Model
import Verif.Knn.Model
import Verif.Post.Model
import Verif.Fusion.Model
import Verif.Trilat.Model

/-!
# Model of `src/navigation_client_impl.{h,cpp}`: the navigation client, composed of all the other parts

The levels are those known when the client is constructed; floors added later to the shared
`LevelCollector` are in `Verif.Grow`.  After an exception the client is not used any more.
-/

namespace Verif.Nav

open Verif.Levels
open Verif.Knn (Result)
open Verif.Geo (XYPoint GeoPoint)

/-! ## Results that may fail -/

/-- Sequencing of computations that may throw or have undefined behaviour. -/
def andThen {α β : Type} (r : Result α) (f : α → Result β) : Result β :=
  match r with
  | .ok a => f a
  | .throws => .throws
  | .undefined => .undefined

/-- An optional value whose absence means an exception. -/
def orThrow {α : Type} : Option α → Result α
  | some a => .ok a
  | none => .throws

/-- An optional value whose absence means undefined behaviour. -/
def orUndefined {α : Type} : Option α → Result α
  | some a => .ok a
  | none => .undefined

/-! ## Construction -/

/-- The external algorithms: `std::sort` calls, the Boost test against the allowed area of a level, and
the Eigen least squares solver. -/
structure Env where
  radioSorts : Radio.Sorts
  triSorts : Triang.Sorts
  rpSort : List (String × ℝ) → List (String × ℝ)
  allowed : Level → ℝ → ℝ → Prop
  distanceSort : List RadioData → List RadioData
  solve : List Trilat.Row → XYZPoint

/-- `navigation_client_impl.cpp` 192-202: the chosen `PositionEstimator` with its constants. -/
inductive Indoor where
  | knn (c : Knn.Cfg)
  | zone (A B : List (String × ℝ))

/-- `navigation_client_impl.cpp` 176-190: the chosen `LevelEstimator` with its constants. -/
inductive LevelDetector where
  | radiomap (useBestRp : Bool) (maps : List (String × List Knn.Fingerprint))
  | transmitters (useTxPower : Bool)

/-- `navigation_client_impl.h` 45-63: the constants of the client and its parts. -/
structure Cfg where
  env : Env
  cs : CommonSettings
  levels : LevelCollector
  noSignal : Int
  noAction : Int
  detector : LevelDetector
  indoor : Indoor
  pre : Radio.Cfg
  fusion : Fusion.FusionConfig

/-- `navigation_client_impl.cpp` 176-190: `createLevelEstimator`. -/
noncomputable def createLevelEstimator (c : LevelCollector) (cs : CommonSettings) : LevelDetector :=
  if cs.useRadiomap = true ∨ cs.useAlgorithm = .KNN then
    .radiomap cs.useBestRefPointLevel (Knn.getLevelsRadiomaps c)
  else .transmitters cs.useTxPower

/-- `navigation_client_impl.cpp` 192-202: `createPostitionEstimator`; `none`: a level has no settings. -/
noncomputable def createPositionEstimator (env : Env) (c : LevelCollector) (cs : CommonSettings)
    (levelSettings : List (String × Estim.LevelSettings)) : Option Indoor :=
  if cs.useAlgorithm = .KNN then some (.knn (Knn.mkCfg env.triSorts env.rpSort c cs))
  else (Estim.zoneParams levelSettings c).map (fun ab => .zone ab.1 ab.2)

/-- `navigation_client_impl.cpp` 14-31: the constructor, constant part; `none`: it throws. -/
noncomputable def mkCfg (env : Env) (c : LevelCollector) (cs : CommonSettings)
    (levelSettings : List (String × Estim.LevelSettings)) : Option Cfg :=
  (createPositionEstimator env c cs levelSettings).map (fun indoor =>
    { env := env
      cs := cs
      levels := c
      noSignal := 1000 * cs.noSignalTimeThreshold
      noAction := 1000 * cs.noActionTimeThreshold
      detector := createLevelEstimator c cs
      indoor := indoor
      pre := Radio.mkCfg c cs
      fusion := Fusion.fusionConfig cs })

/-- Memory contents that the constructors leave indeterminate. -/
structure Garbage where
  lastSignalTs : Int
  sensor : SensorMeasurement
  nmea : NmeaMeasurement
  magn : SensorType × Int
  accel : SensorType × Int

/-- `navigation_client_impl.h` 45-63: the state of the client and its parts (`mNavigationStates` is
returned by the model of `navigate`). -/
structure State where
  pre : Radio.State
  fusion : Fusion.FusionState
  level : LevelEst.Estimator
  indoorPos : Position
  outdoor : Estim.OutdoorState
  post : Post.PostState
  position : Position
  flagIndoorPos : Bool
  prevHeading : Option ℝ
  prevGyro : Option ℝ

/-- `navigation_client_impl.cpp` 14-31: the constructor, variable part. -/
noncomputable def init (c : Cfg) (g : Garbage) : State where
  pre := Radio.State.init g.lastSignalTs g.sensor g.nmea
  fusion := Fusion.fusionInit g.magn g.accel
  level := .init
  indoorPos := Position.default
  outdoor := Estim.outdoorInit
  post := Post.postInit c.cs
  position := Position.default
  flagIndoorPos := false
  prevHeading := none
  prevGyro := none

/-! ## One measurement -/

/-- `navigation_output.h` 25-36: `struct NavigationOutput`.  `posR`, `posOrientation` and `provider` have no
initial value: `none` is an indeterminate one.  A `posAltitude` of `none` is infinite or NaN. -/
structure Output where
  status : NavigationStatus
  posLevel : String := ""
  posLatitude : ℝ := 0
  posLongitude : ℝ := 0
  posAltitude : Option ℝ := some 0
  posR : Option ℝ := none
  posOrientation : Option ℝ := none
  provider : Option Provider := none

/-- `navigation_state.h` 54-70: the members of `NavigationState` that the client sets. -/
structure DebugState where
  stepCounter : ℕ
  stepLen : ℝ
  indoorPosition : XYPoint
  outdoorPosition : XYPoint

/-- What is known after `navigation_client_impl.cpp` 55-64. -/
structure Sensed where
  pre : Radio.State
  fusion : Fusion.FusionState
  info : Fusion.MotionInfo
  radio : List RadioData
  level : LevelEst.Estimator
  levelId : String
  outdoor : Estim.OutdoorState
  outdoorPos : Position

/-- The virtual `detectCurrentLevel`; `none`: throws. -/
noncomputable def detectLevel (c : Cfg) (radio : List RadioData) : Option String :=
  match c.detector with
  | .radiomap best maps => Knn.detectByRadiomap best maps c.levels radio
  | .transmitters txPower => LevelEst.detectByTransmitters txPower c.levels radio

/-- `navigation_client_impl.cpp` 55-64. -/
noncomputable def sense (c : Cfg) (s : State) (m : Measurement) : Result Sensed :=
  let pre := Radio.updateMeasurements c.pre s.pre m
  let curTs := pre.currentTs
  andThen (orUndefined (Fusion.calculateDisplacement c.fusion s.fusion pre.sensor curTs)) (fun f =>
    let e := Radio.extractRadioMeasurements c.env.radioSorts c.pre pre f.2.lastMotionTs
    andThen (orThrow e.1) (fun radio =>
      andThen (orThrow (detectLevel c radio)) (fun detected =>
        let l := LevelEst.calculateLevel c.cs.useBarometer s.level detected pre.sensor
        andThen (orUndefined (Estim.outdoorPosition c.cs c.levels s.outdoor curTs pre.sensor pre.nmea s.flagIndoorPos))
          (fun o => .ok ⟨e.2, f.1, f.2, radio, l.2, l.1, o.2, o.1⟩))))

/-- `navigation_client_impl.cpp` 67-77: the level after the two time-outs (`reInit` does nothing in both
estimators). -/
def timedOutLevel (c : Cfg) (x : Sensed) : String :=
  let silence := x.pre.currentTs - x.pre.lastSignalTs
  let levelId := if silence ≥ c.noSignal then "" else x.levelId
  if silence ≥ c.noAction ∧ x.pre.currentTs - x.info.lastMotionTs ≥ c.noAction ∧ x.info.lastMotionTs > 0 then ""
  else levelId

/-- The virtual `calculatePosition` of the indoor estimator: (status, position, new `mPosition`). -/
noncomputable def indoorPosition (c : Cfg) (mPosition : Position) (level : Level) (ts : Int) (radio : List RadioData) :
    Result (NavigationStatus × Position × Position) :=
  match c.indoor with
  | .knn k => andThen (Knn.calculatePosition k mPosition level ts radio) (fun r => .ok (r.1, r.2, r.2))
  | .zone A B => let r := Estim.zonePosition A B level ts radio; .ok (r.1, r.2, mPosition)

/-- What is known after `navigation_client_impl.cpp` 67-118: the new state, the status and the azimuth. -/
structure Located where
  state : State
  status : NavigationStatus
  azimuth : ℝ

/-- `navigation_client_impl.cpp` 88-101: the heading logic; the result is (azimuth, is it valid, previous
fused heading, previous gyro heading).  Reading an empty `mPrevFusedPosHeading` is undefined. -/
noncomputable def headingLogic (info : Fusion.MotionInfo) (fused : Position) (prevHeading prevGyro : Option ℝ) :
    Result (ℝ × Bool × Option ℝ × Option ℝ) :=
  let newHeading := if fused.isEmpty = false then some fused.heading else prevHeading
  let correct : Result (ℝ × Bool × Option ℝ × Option ℝ) :=
    match prevGyro with
    | none => .ok (info.azimuth, info.isAzimuthValid, newHeading, prevGyro)
    | some g =>
      match prevHeading with
      | none => .undefined
      | some h =>
        let deltaGyroHeading := info.gyroHeading - g
        .ok (-(h - deltaGyroHeading - Real.pi / 2), true, newHeading, prevGyro)
  match prevHeading with
  | none => correct
  | some h =>
    open Classical in
    if fused.isEmpty = false ∧ fused.heading ≠ h then
      .ok (info.azimuth, false, newHeading, some info.gyroHeading)
    else correct

/-- `navigation_client_impl.cpp` 104-109: the azimuth for the output. -/
noncomputable def finalAzimuth (c : Cfg) (azimuth : ℝ) (valid : Bool) (fused : Position) : ℝ :=
  let a := if valid then azimuth else -(fused.heading - Real.pi / 2)
  if c.cs.useEnuAzimuth then -a + Real.pi / 2 else a

/-- `navigation_client_impl.cpp` 81-109: the branch for a known level. -/
noncomputable def locateIndoor (c : Cfg) (s : State) (x : Sensed) (level : Level) : Result Located :=
  andThen (indoorPosition c s.indoorPos level x.pre.currentTs x.radio) (fun i =>
    let fused := Post.fusePositions c.cs s.post x.pre.currentTs i.2.1 x.outdoorPos i.1
    andThen (headingLogic x.info fused.1 s.prevHeading s.prevGyro) (fun h =>
      andThen (orUndefined (Post.getProcessedPosition c.cs (c.env.allowed level) fused.2 fused.1 x.pre.currentTs
          x.info.lastMotionTs level)) (fun p =>
        .ok ⟨⟨x.pre, x.fusion, x.level, i.2.2, x.outdoor, p.2, p.1, !i.2.1.isEmpty, h.2.2.1, h.2.2.2⟩,
          i.1, finalAzimuth c h.1 h.2.1 fused.1⟩)))

/-- `navigation_client_impl.cpp` 67-118. -/
noncomputable def locate (c : Cfg) (s : State) (x : Sensed) : Result Located :=
  let levelId := timedOutLevel c x
  let base : State := { s with
    pre := x.pre, fusion := x.fusion, level := x.level, outdoor := x.outdoor, flagIndoorPos := false }
  if hasLevel c.levels levelId then
    andThen (orThrow (Levels.level c.levels levelId)) (locateIndoor c s x)
  else if x.outdoorPos.isEmpty = false then
    .ok ⟨{ base with position := x.outdoorPos }, .OK, x.info.azimuth⟩
  else .ok ⟨base, .NO_LEVEL, x.info.azimuth⟩

/-- `navigation_client_impl.cpp` 120-128: the debug state. -/
def debugState (x : Sensed) (s : State) : DebugState where
  stepCounter := x.info.stepCounter
  stepLen := x.info.distance
  indoorPosition := ⟨s.post.indoorPos.x, s.post.indoorPos.y⟩
  outdoorPosition := ⟨s.post.outdoorPos.x, s.post.outdoorPos.y⟩

/-- `navigation_client_impl.cpp` 159-165: the altitude. -/
noncomputable def altitudeOf (c : Cfg) (level : Level) (radio : List RadioData) : Result (Option ℝ) :=
  if c.cs.useAltitude then
    andThen (orThrow (Trilat.calculateAltitude c.env.distanceSort c.env.solve level radio)) (fun a =>
      .ok (match a with
        | .none => some 0
        | .value v => some v
        | .notFinite => none))
  else .ok (some 0)

/-- `navigation_client_impl.cpp` 130-171: the output. -/
noncomputable def report (c : Cfg) (x : Sensed) (l : Located) : Result Output :=
  let p := l.state.position
  if p.isEmpty then
    .ok { status := if l.status = .OK then .NAVIGATION_ERROR else l.status }
  else
    let out : Output := { status := .OK, posLevel := p.levelId, posR := some p.deviationM, provider := some p.provider
                          posOrientation := some (Fusion.toMinusPiPi l.azimuth) }
    if p.levelId ≠ "" then
      andThen (orThrow (Levels.level c.levels p.levelId)) (fun level =>
        let gps := Geo.localToGps ⟨p.x, p.y⟩ level.bindingPoint
        andThen (altitudeOf c level x.radio) (fun a =>
          .ok { out with posLatitude := gps.latitude, posLongitude := gps.longitude, posAltitude := a }))
    else .ok out

/-- `navigation_client_impl.cpp` 53-171: the body of the loop for an accepted measurement. -/
noncomputable def step (c : Cfg) (s : State) (m : Measurement) : Result (State × Output × DebugState) :=
  andThen (sense c s m) (fun x =>
    andThen (locate c s x) (fun l =>
      andThen (report c x l) (fun out => .ok (l.state, out, debugState x l.state))))

/-! ## A batch -/

/-- `navigation_client_impl.cpp` 41-172: the loop. -/
noncomputable def loop (c : Cfg) : State → Int → List Measurement → Result (State × List (Output × DebugState))
  | s, _, [] => .ok (s, [])
  | s, prevTs, m :: ms =>
    if prevTs > m.ts then loop c s prevTs ms
    else
      andThen (step c s m) (fun r =>
        andThen (loop c r.1 m.ts ms) (fun r' => .ok (r'.1, (r.2.1, r.2.2) :: r'.2)))

/-- `navigation_client_impl.cpp` 33-174: `navigate`.  The second components are what `getStates` returns
afterwards (for an empty batch it returns the previous ones, see `Verif.Grow`). -/
noncomputable def navigate (c : Cfg) (s : State) (batch : List Measurement) :
    Result (State × List (Output × DebugState)) :=
  match batch with
  | [] => .ok (s, [])
  | m :: ms => loop c s m.ts (m :: ms)

end Verif.Nav
