import Verif.Nav.Model

/-!
# Model of a client whose map grows: `addGeoLevel` on the shared `LevelCollector` after the construction

The client, its preprocessor, its level estimator and its position estimators hold the same
`std::shared_ptr<LevelCollector>` and read it at each measurement.  What the constructors computed from the map
(path loss parameters, radiomaps, triangulations) stays as it was.
-/

namespace Verif.Grow

open Verif.Levels
open Verif.Knn (Result)
open Verif.Nav

/-- `navigation_client_impl.cpp` 18-24, `measurement_preprocessor.cpp` 78, `level_estimator_transmitters.cpp` 16,
`level_estimator_radiomap.cpp` 20, `position_estimator.h` 22, `position_estimator_outdoor.cpp` 54: the constants of the client `c` when the shared collector is `map`. -/
def seeing (c : Cfg) (map : LevelCollector) : Cfg :=
  { c with levels := map, pre := { c.pre with levelIndex := map } }

/-- `navigation_client_impl.h` 45-63: the shared map, the state of the client and its parts, and
`mNavigationStates`. -/
structure Object where
  map : LevelCollector
  state : State
  states : List DebugState

/-- A call on the shared collector or on the client.  The conversion of a `GeoLevel` by `addGeoLevel` is in
`Verif.Levels`; here the converted level is added. -/
inductive Call where
  | addLevel (l : Level)
  | navigate (batch : List Measurement)

/-- `level_collector.cpp` 163-177 and `navigation_client_impl.cpp` 33-39: one call.  `mNavigationStates` is cleared after
the test for an empty batch. -/
noncomputable def call (c : Cfg) (o : Object) : Call → Result (Object × List Output)
  | .addLevel l => .ok ({ o with map := Levels.addLevel o.map l }, [])
  | .navigate batch =>
    andThen (navigate (seeing c o.map) o.state batch) (fun r =>
      .ok (⟨o.map, r.1, if batch.isEmpty then o.states else r.2.map Prod.snd⟩, r.2.map Prod.fst))

/-- Several calls; one list of outputs for each. -/
noncomputable def session (c : Cfg) : Object → List Call → Result (Object × List (List Output))
  | o, [] => .ok (o, [])
  | o, k :: ks =>
    andThen (call c o k) (fun r => andThen (session c r.1 ks) (fun r' => .ok (r'.1, r.2 :: r'.2)))

/-- `navigation_client_impl.cpp` 204-207: `getStates`. -/
def getStates (o : Object) : List DebugState := o.states

/-- `navigation_client_impl.cpp` 55-63: the state when `detectCurrentLevel` throws for the measurement `m`: the
preprocessor and the sensor fusion have taken the measurement, nothing else has. -/
noncomputable def leftBehind (c : Cfg) (s : State) (m : Measurement) : Option State :=
  let pre := Radio.updateMeasurements c.pre s.pre m
  (Fusion.calculateDisplacement c.fusion s.fusion pre.sensor pre.currentTs).map (fun f =>
    { s with
      pre := (Radio.extractRadioMeasurements c.env.radioSorts c.pre pre f.2.lastMotionTs).2
      fusion := f.1 })

end Verif.Grow
