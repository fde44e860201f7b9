import Verif.MapLoad.FileModel
import Verif.JsonIn.Model
import Verif.Nav.Model

/-!
# Model of `tests/navigation_test.cpp`: the command line program that replays a log

The program reads a map, a settings file and a log, feeds the log to a navigation client in batches and
prints one line per output.
-/

namespace Verif.Tool

open Verif.Levels
open Verif.Knn (Result)
open Verif.Nav
open Verif.Geo (GeoPoint)
open Verif.MapLoad (Feature FileLevel FileRefPoint FileStats)
open Verif.JsonIn (Json)

/-! ## From the file to the client -/

/-- `reference_point.h` 18-26: statistics with a mean; `none`: the mean is NaN, because the entry has no
measurements (a real number cannot hold it; see `Outcome.notANumber`). -/
def toStats (s : FileStats) : Option SignalStatistics :=
  s.mean.map (fun μ => ⟨s.type, μ, s.variance, s.nMeasurements⟩)

/-- `helpers.cpp` 565: a reference point as it was read. -/
def toRefPoint (r : FileRefPoint) : Option (ReferencePoint GeoPoint) :=
  (r.fingerprints.mapM (fun e => (toStats e.2).map (fun s => (e.1, s)))).map (fun f => ⟨r.id, r.point, f⟩)

/-- `helpers.cpp` 675-694: a `GeoLevel` as it was read. -/
def toGeoLevel (l : FileLevel) : Option GeoLevel :=
  (l.referencePoints.mapM toRefPoint).map (fun rps => ⟨l.id, l.transmitters, rps, l.geometry, l.graph, l.altitude⟩)

/-! ## Batches -/

/-- `navigation_test.cpp` 77-81 for a positive batch size `k + 1`. -/
def chunks (k : ℕ) : List Measurement → List (List Measurement)
  | [] => []
  | m :: ms => (m :: ms.take k) :: chunks k (ms.drop k)
termination_by ms => ms.length
decreasing_by simp only [List.length_cons, List.length_drop]; omega

/-- `navigation_test.cpp` 77-81: the loop that makes the batches; `none`: it does not end.  A negative
size becomes a huge `size_t`: the first batch takes everything and the loop ends. -/
def splitBatches (n : Int) (ms : List Measurement) : Option (List (List Measurement)) :=
  match ms with
  | [] => some []
  | m :: ms =>
    if n = 0 then none
    else if n < 0 then some [m :: ms]
    else some (chunks (n.toNat - 1) (m :: ms))

/-! ## The lines -/

/-- `navigation_test.cpp` 121-129: one line of the output; an orientation of `none` is indeterminate.  The provider
(98-115) is not printed. -/
structure Line where
  time : Int
  latitude : ℝ
  longitude : ℝ
  altitude : Option ℝ
  pdrX : ℝ
  pdrY : ℝ
  orientation : Option ℝ
  level : String
  status : NavigationStatus

/-- `navigation_test.cpp` 32, 73: the track and the static variables of `BuildPdrTrack`. -/
structure Track where
  x : ℝ
  y : ℝ
  prevDistance : ℝ
  prevHeading : ℝ

/-- `navigation_test.cpp` 32, 73: the initial values. -/
noncomputable def Track.start : Track := ⟨0, 0, 0, 0⟩

open Classical in
/-- `navigation_test.cpp` 30-40: `BuildPdrTrack`. -/
noncomputable def buildPdrTrack (t : Track) (distance heading : ℝ) : Track :=
  if distance ≠ t.prevDistance ∧ heading ≠ t.prevHeading then
    ⟨t.x + distance * Real.cos heading, t.y + distance * Real.sin heading, distance, heading⟩
  else t

/-- `navigation_test.cpp` 92-130: the loop over the outputs of a batch.  `heading` is what `getHeading` returns:
no code sets the member after the constructor of the estimator, which leaves it indeterminate
(`navigation_state.h` 21, 63; `position_estimator.h` 26), so it is the same for all outputs.  More outputs
than measurements would read past the end of the batch. -/
noncomputable def printOutputs (heading : ℝ) (firstTs : Int) :
    Track → List Measurement → List (Output × DebugState) → Result (Track × List Line)
  | t, _, [] => .ok (t, [])
  | _, [], _ :: _ => .undefined
  | t, m :: ms, o :: os =>
    let t1 := if o.1.status = .OK then buildPdrTrack t o.2.stepLen heading else t
    let line : Line := ⟨(m.ts - firstTs).tdiv 1000, o.1.posLatitude, o.1.posLongitude, o.1.posAltitude, t1.x, t1.y,
      o.1.posOrientation, o.1.posLevel, o.1.status⟩
    andThen (printOutputs heading firstTs t1 ms os) (fun r => .ok (r.1, line :: r.2))

/-- `navigation_test.cpp` 83-131: the loop over the batches. -/
noncomputable def runBatches (heading : ℝ) (c : Cfg) : State → Int → Track → List (List Measurement) → Result (List Line)
  | _, _, _, [] => .ok []
  | _, _, _, [] :: _ => .undefined
  | s, firstTs, t, (m :: ms) :: bs =>
    let firstTs1 := if firstTs = 0 then m.ts else firstTs
    andThen (navigate c s (m :: ms)) (fun r =>
      andThen (printOutputs heading firstTs1 t (m :: ms) r.2) (fun p =>
        andThen (runBatches heading c r.1 firstTs1 p.1 bs) (fun ls => .ok (p.2 ++ ls))))

/-! ## The program -/

/-- What the program does.  Lines printed before an exception are not recorded. -/
inductive Outcome where
  /-- `main` returns -/
  | returns (code : Int) (lines : List Line)
  | throws
  | undefined
  /-- the loop that makes the batches does not end -/
  | endless
  /-- a fingerprint without measurements makes a mean NaN; what follows is not modelled -/
  | notANumber

/-- The part that may fail in the way of `Result`. -/
def Outcome.of {α : Type} (r : Result α) (f : α → Outcome) : Outcome :=
  match r with
  | .ok a => f a
  | .throws => .throws
  | .undefined => .undefined

/-- The libraries and the memory contents the program depends on. -/
structure World where
  bg : BoostGeometry
  envelope : List Polygon → Box
  order : List (Int × GeoPoint) → List (Int × GeoPoint)
  env : Env
  garbage : Garbage
  heading : ℝ

/-- The input files: the features of the map (`none`: no JSON), the settings file (see
`createSettingsFromJson`), the lines of the log. -/
structure Files where
  map : Option (List Feature)
  settings : Option (Option Json)
  log : List (Option Json)

/-- `navigation_test.cpp` 65-69: adding the levels. -/
noncomputable def collectLevels (w : World) (gs : List GeoLevel) : Result LevelCollector :=
  match gs.foldlM (addGeoLevel w.bg) emptyCollector with
  | .ok c => .ok c
  | .error _ => .throws

/-- `navigation_test.cpp` 55-71: the client and the error code.  `none`: a mean is NaN; a result without client: the program
returns the error code. -/
noncomputable def makeClient (w : World) (files : Files) : Option (Result (Option Cfg) × Int) :=
  match files.map with
  | none => some (.throws, 0)
  | some fs =>
    match MapLoad.parseGeojson w.bg w.envelope w.order fs with
    | .throws => some (.throws, 0)
    | .undefined => some (.undefined, 0)
    | .ok ls =>
      match JsonIn.createSettingsFromJson files.settings with
      | .throws => some (.throws, 0)
      | .undefined => some (.undefined, 0)
      | .ok (settings, code) =>
        if code ≠ 0 then some (.ok none, code)
        else
          match ls.mapM toGeoLevel with
          | none => none
          | some gs =>
            some (andThen (collectLevels w gs) (fun lc =>
              andThen (orThrow (mkCfg w.env lc settings.common settings.levels)) (fun c => .ok (some c))), 0)

/-- `navigation_test.cpp` 42-133: `main`, for a batch size that is a number (`std::stoi` succeeds). -/
noncomputable def main (w : World) (files : Files) (n : Int) : Outcome :=
  match makeClient w files with
  | none => .notANumber
  | some (r, code) =>
    .of r (fun c =>
      match c with
      | none => .returns code []
      | some c =>
        .of (JsonIn.getNavMessages files.log) (fun ms =>
          match splitBatches n ms with
          | none => .endless
          | some batches => .of (runBatches w.heading c (init c w.garbage) 0 Track.start batches) (.returns 0)))

end Verif.Tool
