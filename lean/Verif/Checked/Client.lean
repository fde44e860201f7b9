import Verif.Checked.Sensors
import Verif.Checked.Radio
import Verif.Checked.Post
import Verif.Nav.Model

/-!
# The navigation client with checked arithmetic

The definitions are those of `Verif/Nav/Model.lean` (which cite the code), on the parts with checked arithmetic; `none` is an
operation outside its domain anywhere in the client.  The altitude is used as it is: its model already says where it is not
finite.
-/

namespace Verif.Checked

open Verif Verif.Levels Verif.Nav
open Verif.Geo (XYPoint GeoPoint)
open Verif.Knn (Result)

/-- Go on with the value, if there is one, of an operation that may throw or be undefined. -/
def bindR {α β : Type} (x : Option (Result α)) (f : α → Option (Result β)) : Option (Result β) :=
  match x with
  | none => none
  | some .throws => some .throws
  | some .undefined => some .undefined
  | some (.ok a) => f a

/-- `navigation_client_impl.cpp` 14-31: the constructor; the inner `none`: it throws. -/
noncomputable def mkCfg (env : Env) (c : LevelCollector) (cs : CommonSettings)
    (levelSettings : List (String × Estim.LevelSettings)) : Option (Option Cfg) := do
  let noSignal ← mul 1000 cs.noSignalTimeThreshold
  let noAction ← mul 1000 cs.noActionTimeThreshold
  let buffer ← createRadioMeasurementBuffer cs
  some ((createPositionEstimator env c cs levelSettings).map (fun indoor =>
    { env := env
      cs := cs
      levels := c
      noSignal := noSignal
      noAction := noAction
      detector := createLevelEstimator c cs
      indoor := indoor
      pre := { Radio.mkCfg c cs with buffer := buffer }
      fusion := Fusion.fusionConfig cs }))

/-- The virtual `detectCurrentLevel`. -/
noncomputable def detectLevel (c : Cfg) (radio : List RadioData) : Option (Option String) :=
  match c.detector with
  | .radiomap best maps => detectByRadiomap best maps c.levels radio
  | .transmitters txPower => detectByTransmitters txPower c.levels radio

/-- `navigation_client_impl.cpp` 55-64. -/
noncomputable def sense (c : Cfg) (s : State) (m : Measurement) : Option (Result Sensed) :=
  let pre := Radio.updateMeasurements c.pre s.pre m
  let curTs := pre.currentTs
  bindR ((displacement c.fusion s.fusion pre.sensor curTs).map orUndefined) (fun f => do
    let e ← extractRadioMeasurements c.env.radioSorts c.pre pre f.2.lastMotionTs
    bindR (some (orThrow e.1)) (fun radio =>
      bindR ((detectLevel c radio).map orThrow) (fun detected => do
        let l ← calculateLevel c.cs.useBarometer s.level detected pre.sensor
        bindR ((outdoorPosition c.cs c.levels s.outdoor curTs pre.sensor pre.nmea s.flagIndoorPos).map orUndefined)
          (fun o => some (.ok ⟨e.2, f.1, f.2, radio, l.2, l.1, o.2, o.1⟩)))))

/-- `navigation_client_impl.cpp` 67-77. -/
noncomputable def timedOutLevel (c : Cfg) (x : Sensed) : Option String := do
  let silence ← sub x.pre.currentTs x.pre.lastSignalTs
  let idle ← sub x.pre.currentTs x.info.lastMotionTs
  let levelId := if silence ≥ c.noSignal then "" else x.levelId
  some (if silence ≥ c.noAction ∧ idle ≥ c.noAction ∧ x.info.lastMotionTs > 0 then "" else levelId)

/-- The virtual `calculatePosition`. -/
noncomputable def indoorPosition (c : Cfg) (mPosition : Position) (level : Level) (ts : Int) (radio : List RadioData) :
    Option (Result (NavigationStatus × Position × Position)) :=
  match c.indoor with
  | .knn k => bindR (knnPosition k mPosition level ts radio) (fun r => some (.ok (r.1, r.2, r.2)))
  | .zone A B => do
    let r ← zonePosition A B level ts radio
    some (.ok (r.1, r.2, mPosition))

/-- `navigation_client_impl.cpp` 81-109. -/
noncomputable def locateIndoor (c : Cfg) (s : State) (x : Sensed) (level : Level) : Option (Result Located) :=
  bindR (indoorPosition c s.indoorPos level x.pre.currentTs x.radio) (fun i => do
    let fused ← fusePositions c.cs s.post x.pre.currentTs i.2.1 x.outdoorPos i.1
    bindR (some (headingLogic x.info fused.1 s.prevHeading s.prevGyro)) (fun h =>
      bindR ((getProcessedPosition c.cs (c.env.allowed level) fused.2 fused.1 x.pre.currentTs
          x.info.lastMotionTs level).map orUndefined) (fun p =>
        some (.ok ⟨⟨x.pre, x.fusion, x.level, i.2.2, x.outdoor, p.2, p.1, !i.2.1.isEmpty, h.2.2.1, h.2.2.2⟩,
          i.1, finalAzimuth c h.1 h.2.1 fused.1⟩))))

/-- `navigation_client_impl.cpp` 67-118. -/
noncomputable def locate (c : Cfg) (s : State) (x : Sensed) : Option (Result Located) := do
  let levelId ← timedOutLevel c x
  let base : State := { s with
    pre := x.pre, fusion := x.fusion, level := x.level, outdoor := x.outdoor, flagIndoorPos := false }
  if hasLevel c.levels levelId then
    bindR (some (orThrow (Levels.level c.levels levelId))) (locateIndoor c s x)
  else if x.outdoorPos.isEmpty = false then
    some (.ok ⟨{ base with position := x.outdoorPos }, .OK, x.info.azimuth⟩)
  else some (.ok ⟨base, .NO_LEVEL, x.info.azimuth⟩)

/-- `src/point.cpp` 47-53. -/
noncomputable def localToGps (q : XYPoint) (bind : GeoPoint) : Option GeoPoint := do
  let lon ← div (q.x * 360) (Geo.latitudeCircumference bind)
  some ⟨q.y * (360 / Geo.poleCircumference) + bind.latitude, Geo.normalizeLongitude (lon + bind.longitude)⟩

/-- `navigation_client_impl.cpp` 130-171. -/
noncomputable def report (c : Cfg) (x : Sensed) (l : Located) : Option (Result Output) :=
  let p := l.state.position
  if p.isEmpty then
    some (.ok { status := if l.status = .OK then .NAVIGATION_ERROR else l.status })
  else
    let out : Output := { status := .OK, posLevel := p.levelId, posR := some p.deviationM, provider := some p.provider
                          posOrientation := some (Fusion.toMinusPiPi l.azimuth) }
    if p.levelId ≠ "" then
      bindR (some (orThrow (Levels.level c.levels p.levelId))) (fun level => do
        let gps ← localToGps ⟨p.x, p.y⟩ level.bindingPoint
        bindR (some (altitudeOf c level x.radio)) (fun a =>
          some (.ok { out with posLatitude := gps.latitude, posLongitude := gps.longitude, posAltitude := a })))
    else some (.ok out)

/-- `navigation_client_impl.cpp` 53-171. -/
noncomputable def step (c : Cfg) (s : State) (m : Measurement) : Option (Result (State × Output × DebugState)) :=
  bindR (sense c s m) (fun x =>
    bindR (locate c s x) (fun l =>
      bindR (report c x l) (fun out => some (.ok (l.state, out, debugState x l.state)))))

/-- `navigation_client_impl.cpp` 41-172. -/
noncomputable def loop (c : Cfg) : State → Int → List Measurement → Option (Result (State × List (Output × DebugState)))
  | s, _, [] => some (.ok (s, []))
  | s, prevTs, m :: ms =>
    if prevTs > m.ts then loop c s prevTs ms
    else
      bindR (step c s m) (fun r =>
        bindR (loop c r.1 m.ts ms) (fun r' => some (.ok (r'.1, (r.2.1, r.2.2) :: r'.2))))

/-- `navigation_client_impl.cpp` 33-174: `navigate`. -/
noncomputable def navigate (c : Cfg) (s : State) (batch : List Measurement) :
    Option (Result (State × List (Output × DebugState))) :=
  match batch with
  | [] => some (.ok (s, []))
  | m :: ms => loop c s m.ts (m :: ms)

end Verif.Checked
