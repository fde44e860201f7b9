import Verif.Mixed.Spec
import Verif.Stand.Spec

/-!
# Specification vocabulary for C136: what a client with zones answers that detects stops

One floor with beacons, no satellite fixes.  The memory of the client is a function of the messages and of the messages at which a
step is reported.
-/

namespace Verif.Stand

open Verif.Levels Verif.Nav
open Verif.Geo (XYPoint)
open Verif.Mixed (Fix zoneFix ZoneLaw)

/-- Settings that locate by zones and detect stops, without smoothing and without the graph. -/
structure StopZones (cs : CommonSettings) : Prop extends ByZones cs where
  shift : cs.sigWindowShift = 0
  span : 1 / 1000 ≤ cs.sigAveragingTime
  closest : cs.useClosestAps = false
  timeSmoothing : cs.useTimeSmoothing = false
  smoothing : cs.useSmoothing = false
  stops : cs.useStops = true
  graph : cs.useGraphProjection = false
  outside : cs.useGpsOutsideMap = false
  reckoning : 0 ≤ cs.deadReckoningTime
  noSignal : 0 < cs.noSignalTimeThreshold
  noAction : 0 < cs.noActionTimeThreshold
  barometer : cs.useBarometer = false
  detection : 0 ≤ cs.stopDetectionTime
  update : 0 ≤ cs.stopUpdateTime

/-- What the client remembers. -/
structure Memory where
  /-- The open window and the last one that was closed. -/
  win : Windows
  /-- When the last signal was heard. -/
  heard : Option Int
  /-- The last step. -/
  step : Option Int
  /-- The last step made while the floor was in use. -/
  counted : Option Int
  /-- The last zone. -/
  zone : Option Fix
  /-- The place that is held. -/
  spot : XYPoint
  /-- Its radius; none before the first place. -/
  radius : Option ℝ
  /-- When the place was last renewed during a stop. -/
  renewed : Int
  /-- The place and radius that are shown. -/
  answer : Option (XYPoint × ℝ)

/-- Before the first message. The place that is held is the origin. -/
def Memory.start : Memory := ⟨⟨none, [], none⟩, none, none, none, none, ⟨0, 0⟩, none, 0, none⟩

/-- A signal is heard. A window closes as it does without stops, but during a stop its signals stay in the next one. -/
def hearOn (span : Int) (stay : Bool) (w : Windows) (h : RadioMeasurement) : Windows :=
  if span ≤ h.ts - w.opened.getD h.ts then
    ⟨some h.ts, if stay then w.pending ++ [h] else [], some (h.ts, w.pending ++ [h])⟩
  else ⟨some (w.opened.getD h.ts), w.pending ++ [h], w.closed⟩

/-- At the time `now` the last step is more than the detection time ago. -/
def Resting (cs : CommonSettings) (step : Option Int) (now : Int) : Prop :=
  ∃ t, step = some t ∧ ⌊1000 * cs.stopDetectionTime⌋ < now - t

/-- At the time `now` the last counted step is at least the detection time ago. -/
def Stopped (cs : CommonSettings) (counted : Option Int) (now : Int) : Prop :=
  ∃ t, counted = some t ∧ ⌊1000 * cs.stopDetectionTime⌋ ≤ now - t

open Classical in
/-- Only radio measurements that the map and the settings admit count. -/
noncomputable def takeOn (ls : List Level) (cs : CommonSettings) (stay : Prop) (w : Windows) (m : Measurement) : Windows :=
  match m.data with
  | .radio d => if Radio.Admissible ls cs d then hearOn (spanOf cs) (decide stay) w ⟨d, m.ts⟩ else w
  | _ => w

/-- The message closes a window. -/
def Memory.Closes (lv : Level) (cs : CommonSettings) (v : Memory) (m : Measurement) : Prop :=
  Heard [lv] cs m ∧ spanOf cs ≤ m.ts - v.win.opened.getD m.ts

/-- The floor is in use: a window was closed, and the last signal is recent. -/
def Memory.InUse (cs : CommonSettings) (v : Memory) (now : Int) : Prop :=
  v.win.closed ≠ none ∧ ∃ t, v.heard = some t ∧ now < t + 1000 * cs.noSignalTimeThreshold

/-- Into the bounding box of the floor, and down to centimetres. -/
noncomputable def settle (lv : Level) (p : XYPoint) : XYPoint :=
  ⟨downToCm (min (max p.x lv.geometry.boundingBox.minCorner.x) lv.geometry.boundingBox.maxCorner.x),
   downToCm (min (max p.y lv.geometry.boundingBox.minCorner.y) lv.geometry.boundingBox.maxCorner.y)⟩

/-- The zone lies in the bounding box and is young enough. -/
def Usable (lv : Level) (cs : CommonSettings) (z : Fix) (now : Int) : Prop :=
  Estim.Box.Covers lv.geometry.boundingBox z.place ∧ now - z.time < ⌊1000 * cs.deadReckoningTime⌋

/-- During a stop the place is renewed only if the update time has passed and the zone is near. -/
def Renews (cs : CommonSettings) (v : Memory) (z : Fix) (now : Int) : Prop :=
  ⌊1000 * cs.stopUpdateTime⌋ < now - v.renewed ∧
    Geometry.getDist v.spot.x v.spot.y z.place.x z.place.y < cs.useStopsDistanceThresholdM

open Classical in
/-- The signals, the steps and the windows after a message with or without a step. -/
noncomputable def Memory.sense (lv : Level) (cs : CommonSettings) (v : Memory) (m : Measurement) (stepped : Bool) : Memory :=
  let step := if stepped then some m.ts else v.step
  { v with
    step := step
    heard := if Heard [lv] cs m then some m.ts else v.heard
    win := takeOn [lv] cs (Resting cs step m.ts) v.win m }

open Classical in
/-- The steps and the zones while the floor is in use. -/
noncomputable def Memory.count (lv : Level) (a b : ℝ) (v : Memory) (closes : Prop) (now : Int) (stepped : Bool) :
    Memory :=
  { v with
    counted := if stepped then some now else v.counted
    zone := if closes then v.win.closed.bind (fun r => zoneFix lv a b r.1 r.2) else v.zone }

open Classical in
/-- The place that is held and shown: during a stop the old one, unless it is renewed. -/
noncomputable def Memory.display (lv : Level) (cs : CommonSettings) (v : Memory) (now : Int) : Memory :=
  match v.zone with
  | none => { v with answer := none }
  | some z =>
    if ¬ Usable lv cs z now then { v with answer := none }
    else if Stopped cs v.counted now ∧ ¬ Renews cs v z now then
      { v with spot := settle lv v.spot, answer := v.radius.map (fun r => (settle lv v.spot, r)) }
    else
      { v with
        spot := settle lv z.place
        radius := some z.radius
        renewed := if Stopped cs v.counted now then now else v.renewed
        answer := some (settle lv z.place, z.radius) }

open Classical in
/-- The memory after a message. While the floor is not in use the answer stays. -/
noncomputable def Memory.after (lv : Level) (cs : CommonSettings) (a b : ℝ) (v : Memory) (m : Measurement) (stepped : Bool) : Memory :=
  let w := v.sense lv cs m stepped
  if w.InUse cs m.ts then (w.count lv a b (v.Closes lv cs m) m.ts stepped).display lv cs m.ts else w

/-- The memory after a history; `steps` says at which messages a step is reported. -/
noncomputable def memory (lv : Level) (cs : CommonSettings) (a b : ℝ) (ms : List Measurement) (steps : List Bool) : Memory :=
  (ms.zip steps).foldl (fun v e => v.after lv cs a b e.1 e.2) .start

/-- The messages at which a step is reported. -/
def stepsOf (outs : List (Output × DebugState)) : List Bool := outs.map (fun o => decide (0 < o.2.stepCounter))

/-- What the answer says. -/
def Tells (lv : Level) (answer : Option (XYPoint × ℝ)) (out : Output) : Prop :=
  match answer with
  | none => Blank out ∧ out.status ≠ .OK
  | some (p, r) => out.status = .OK ∧ out.posLevel = lv.id ∧ out.provider = some .INDOOR ∧ out.posR = some r ∧
      (⟨out.posLatitude, out.posLongitude⟩ : Geo.GeoPoint) = Geo.localToGps p lv.bindingPoint

/-- The answer to the message `m` of a client with memory `v`: the place that is held, if one is shown; and otherwise, why not. -/
structure Answers (lv : Level) (cs : CommonSettings) (a b : ℝ) (v : Memory) (m : Measurement) (r : Output × DebugState) : Prop where
  tells : Tells lv (v.after lv cs a b m (decide (0 < r.2.stepCounter))).answer r.1
  /-- The debug state gives the last zone. -/
  place : ∀ z, (v.after lv cs a b m (decide (0 < r.2.stepCounter))).zone = some z → r.2.indoorPosition = z.place
  away : (v.after lv cs a b m (decide (0 < r.2.stepCounter))).answer = none →
    ¬ (v.sense lv cs m (decide (0 < r.2.stepCounter))).InUse cs m.ts → r.1.status = .NO_LEVEL
  closes : (v.after lv cs a b m (decide (0 < r.2.stepCounter))).answer = none →
    (v.sense lv cs m (decide (0 < r.2.stepCounter))).InUse cs m.ts → v.Closes lv cs m → r.1.status = .NAVIGATION_ERROR
  waits : (v.after lv cs a b m (decide (0 < r.2.stepCounter))).answer = none →
    (v.sense lv cs m (decide (0 < r.2.stepCounter))).InUse cs m.ts → ¬ v.Closes lv cs m → r.1.status = .NO_SOLUTION

end Verif.Stand
