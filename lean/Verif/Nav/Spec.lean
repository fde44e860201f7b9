import Verif.Nav.Model
import Verif.Levels.Lemmas
import Verif.Radio.Spec

/-!
# Specification vocabulary for the navigation client
-/

namespace Verif.Nav

open Verif.Levels
open Verif.Knn (Result)

/-- The measurements of a batch that are not older than any earlier measurement of the batch. -/
def records (batch : List Measurement) : List Measurement :=
  (batch.zipIdx.filter (fun p : Measurement × ℕ => decide (∀ e ∈ batch.take p.2, e.ts ≤ p.1.ts))).map Prod.fst

/-- Time stamps never decrease. -/
def Ordered (ms : List Measurement) : Prop := ms.Pairwise (fun a b => a.ts ≤ b.ts)

/-- Several calls of `navigate`, with all outputs. -/
noncomputable def navigateAll (c : Cfg) : State → List (List Measurement) → Result (State × List (Output × DebugState))
  | s, [] => .ok (s, [])
  | s, b :: bs =>
    andThen (navigate c s b) (fun r => andThen (navigateAll c r.1 bs) (fun r' => .ok (r'.1, r.2 ++ r'.2)))

/-- `s` is the state of a client after some calls of `navigate`, whatever memory it started with. -/
inductive Reachable (c : Cfg) : State → Prop
  | start (g : Garbage) : Reachable c (init c g)
  | call {s s' : State} {outs : List (Output × DebugState)} (batch : List Measurement) (h : Reachable c s)
      (hn : navigate c s batch = .ok (s', outs)) : Reachable c s'

/-- A map as the loader builds it: the level ids are different and not empty, the index of each radiomap
was built by the radiomap's constructor, each graph by adding vertices and edges. -/
structure GoodMap (ls : List Level) : Prop where
  nodup : (ls.map Level.id).Nodup
  named : ∀ l ∈ ls, l.id ≠ ""
  radiomap : ∀ l ∈ ls, l.radiomap = mkRadiomap l.radiomap.referencePoints
  graph : ∀ l ∈ ls, ∃ ops, l.graph = NavGraph.run ops

/-- The settings avoid two undefined behaviours: a sigma filter without a window (C34) and a least squares
fit over a negative time (C47). -/
structure GoodSettings (cs : CommonSettings) : Prop where
  sigma : cs.useGpsSigmaFilter = true → 0 < cs.sigmaFilterWindow
  fit : cs.useAbFilter = false → 0 ≤ cs.sigAveragingTime

/-- `c` are the constants of a client for the levels `ls`. -/
structure Client (ls : List Level) (c : Cfg) : Prop where
  map : GoodMap ls
  settings : GoodSettings c.cs
  /-- `std::sort` does what the standard says -/
  sort : SortsBy (fun a b : RadioData => a.distance < b.distance) c.env.distanceSort
  radioSorts : c.env.radioSorts.Lawful
  built : ∃ levelSettings, mkCfg c.env (collect ls) c.cs levelSettings = some c

/-- The measurements that several calls do not drop. -/
def taken (batches : List (List Measurement)) : List Measurement := batches.flatMap records

/-- A radio measurement that the map and the settings admit (C16). -/
def Heard (ls : List Level) (cs : CommonSettings) (m : Measurement) : Prop :=
  ∃ d, m.data = .radio d ∧ Radio.Admissible ls cs d

/-- Every admitted radio measurement is at least as old as the no-signal threshold (in seconds) at the time of the
last measurement `m`. -/
def Silent (ls : List Level) (cs : CommonSettings) (before : List Measurement) (m : Measurement) : Prop :=
  ∀ e ∈ before ++ [m], Heard ls cs e → e.ts + 1000 * cs.noSignalTimeThreshold ≤ m.ts

/-- The last admitted radio measurement is younger than the no-signal threshold. -/
def Fresh (ls : List Level) (cs : CommonSettings) (before : List Measurement) (m : Measurement) : Prop :=
  ∃ a e b, before ++ [m] = a ++ e :: b ∧ Heard ls cs e ∧ (∀ e' ∈ b, ¬ Heard ls cs e') ∧
    m.ts < e.ts + 1000 * cs.noSignalTimeThreshold

/-- The last sensor message, or the initial memory contents `g`. -/
def lastSensor (g : SensorMeasurement) (ms : List Measurement) : SensorMeasurement :=
  ((ms.filterMap (fun m => match m.data with
    | .sensor d => some (⟨d, m.ts⟩ : SensorMeasurement)
    | _ => none)).getLast?).getD g

/-- The last NMEA message, or the initial memory contents `g`. -/
def lastNmea (g : NmeaMeasurement) (ms : List Measurement) : NmeaMeasurement :=
  ((ms.filterMap (fun m => match m.data with
    | .nmea d => some (⟨d, m.ts⟩ : NmeaMeasurement)
    | _ => none)).getLast?).getD g

/-- Both outputs report the same place. -/
def SamePlace (a b : Output) : Prop :=
  a.status = .OK ∧ b.status = .OK ∧ a.posLevel = b.posLevel ∧ a.posLatitude = b.posLatitude ∧
    a.posLongitude = b.posLongitude ∧ a.posR = b.posR ∧ a.provider = b.provider

/-- An output that reports a place: on a level of the map, with all fields set. -/
def Complete (ls : List Level) (o : Output) : Prop :=
  ∃ l ∈ ls, ∃ p : Geo.XYPoint, ∃ r a pr, o.posLevel = l.id ∧
    Geo.localToGps p l.bindingPoint = ⟨o.posLatitude, o.posLongitude⟩ ∧ o.posR = some r ∧
    o.posOrientation = some a ∧ -Real.pi ≤ a ∧ a < Real.pi ∧ o.provider = some pr ∧ pr ≠ .NONE

/-- An output without a place: the initialised fields have their defaults, the others are indeterminate. -/
def Blank (o : Output) : Prop :=
  o.posLevel = "" ∧ o.posLatitude = 0 ∧ o.posLongitude = 0 ∧ o.posAltitude = some 0 ∧ o.posR = none ∧
    o.posOrientation = none ∧ o.provider = none

/-- A fix of the satellite receiver. -/
def IsLocation (m : Measurement) : Prop := ∃ d, m.data = .sensor d ∧ d.type = .LOCATION

/-- The first measurement is one of a sensor, and an NMEA message comes before the first fix. -/
structure WellStarted (ms : List Measurement) : Prop where
  sensor : ∀ m, ms.head? = some m → ∃ d, m.data = .sensor d
  nmea : ∀ a m b, ms = a ++ m :: b → IsLocation m → ∃ n ∈ a, ∃ d, n.data = .nmea d

end Verif.Nav
