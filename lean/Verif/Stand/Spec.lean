import Verif.Nav.Spec
import Verif.Geometry.Spec

/-!
# Specification vocabulary for C135: what a client shows while its user stands still

Only the times of the messages, the answers and the debug states are inspected: a step is reported at a message when the step
counter of its debug state is positive.
-/

namespace Verif.Stand

open Verif.Levels Verif.Nav
open Verif.Geo (XYPoint)

/-- One message: its time, the answer to it, and the debug state beside the answer. -/
abbrev Entry := Int × Output × DebugState

/-- The messages with what was answered to them. -/
def logOf (ms : List Measurement) (outs : List (Output × DebugState)) : List Entry := (ms.map (fun m => m.ts)).zip outs

/-- A step is reported at the message, and the client knows its floor. -/
def Steps (e : Entry) : Prop := 0 < e.2.2.stepCounter ∧ e.2.1.status ≠ .NO_LEVEL

/-- A place is shown. -/
def Shows (e : Entry) : Prop := e.2.1.status = .OK

/-- At the time `t` the last step is at least the detection time of stops ago (and there was one). -/
def Still (cs : CommonSettings) (log : List Entry) (t : Int) : Prop :=
  ∃ a e b, log = a ++ e :: b ∧ Steps e ∧ (∀ x ∈ b, ¬ Steps x) ∧ ⌊1000 * cs.stopDetectionTime⌋ ≤ t - e.1

/-- `e` is the last message of the log at which a place is shown. -/
def LastShown (log : List Entry) (e : Entry) : Prop := ∃ a b, log = a ++ e :: b ∧ Shows e ∧ ∀ x ∈ b, ¬ Shows x

/-- The two answers have the same coordinates. -/
def SameSpot (a b : Entry) : Prop := a.2.1.posLatitude = b.2.1.posLatitude ∧ a.2.1.posLongitude = b.2.1.posLongitude

/-- The answer gives the coordinates of the point `p` of the floor. -/
def At (lv : Level) (e : Entry) (p : XYPoint) : Prop :=
  (⟨e.2.1.posLatitude, e.2.1.posLongitude⟩ : Geo.GeoPoint) = Geo.localToGps p lv.bindingPoint

/-- The point lies in the bounding box of the floor, up to the rounding down to whole centimetres. -/
def OnFloor (lv : Level) (p : XYPoint) : Prop :=
  min lv.geometry.boundingBox.minCorner.x lv.geometry.boundingBox.maxCorner.x - 1 / 100 < p.x ∧
  p.x ≤ lv.geometry.boundingBox.maxCorner.x ∧
  min lv.geometry.boundingBox.minCorner.y lv.geometry.boundingBox.maxCorner.y - 1 / 100 < p.y ∧
  p.y ≤ lv.geometry.boundingBox.maxCorner.y

/-- After the messages of `log`, of which `a` is the last one at which a place was shown, the message `e` shows another place
although the user stands still. -/
structure Moves (cs : CommonSettings) (log : List Entry) (a e : Entry) : Prop where
  still : Still cs (log ++ [e]) e.1
  shows_ : Shows e
  last : LastShown log a
  moved : ¬ SameSpot a e

/-- No message is a satellite fix. -/
def NoFixes (g : Garbage) (ms : List Measurement) : Prop :=
  g.sensor.data.type ≠ .LOCATION ∧ ∀ m ∈ ms, ∀ d, m.data = .sensor d → d.type ≠ .LOCATION

/-- Once the floor is known, no message comes later than the no-signal time after the last signal. -/
def StaysInTouch (ls : List Level) (cs : CommonSettings) (ms : List Measurement) (outs : List (Output × DebugState)) : Prop :=
  ∀ a m b, ms = a ++ m :: b → (∃ o ∈ outs.take a.length, o.1.status ≠ .NO_LEVEL) → Fresh ls cs a m

/-- What is assumed of a session: positive times, no satellite fixes, and signals that keep coming. -/
structure Session (lv : Level) (c : Cfg) (g : Garbage) (ms : List Measurement) (outs : List (Output × DebugState)) : Prop where
  times : ∀ m ∈ ms, 0 < m.ts
  noFixes : NoFixes g ms
  touch : StaysInTouch [lv] c.cs ms outs

/-- One floor, stops are detected, no projection onto the graph, no barometer. -/
structure Stops (cs : CommonSettings) : Prop where
  stops : cs.useStops = true
  graph : cs.useGraphProjection = false
  barometer : cs.useBarometer = false
  noAction : 0 < cs.noActionTimeThreshold
  detection : 0 ≤ cs.stopDetectionTime
  update : 0 ≤ cs.stopUpdateTime

end Verif.Stand
