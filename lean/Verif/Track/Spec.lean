import Verif.Floors.Spec

/-!
# Specification vocabulary for C123: what a client with its default settings answers on one floor

Everything is said in terms of the measurements given to the client, the map and the settings.
-/

namespace Verif.Track

open Verif.Levels Verif.Nav
open Verif.Geo (XYPoint)

/-- Settings that smooth the positions of the indoor estimator with the alpha-beta filter. -/
structure Smoothed (cs : CommonSettings) : Prop extends Direct cs where
  smoothing : cs.useSmoothing = true
  filter : cs.useAbFilter = true
  accuracy : cs.useAccuracyForSmoothing = false
  alive : 1 / 1000 ≤ cs.deadReckoningTime

/-- The settings of a client that locates by zones and smooths with the alpha-beta filter; the default settings are such. -/
structure SmoothZones (cs : CommonSettings) : Prop extends Smoothed cs, ByZones cs

/-- A place at a time. -/
structure Fix where
  time : Int
  place : XYPoint

/-- The strongest transmitter of the window is at `p`, inside the bounding box of the floor. -/
def FixAt (lv : Level) (win : List RadioMeasurement) (p : XYPoint) : Prop :=
  ∃ b t, Strongest win b ∧ lv.transmitter b = some t ∧ p = ⟨t.point.x, t.point.y⟩ ∧ Estim.Box.Covers lv.geometry.boundingBox p

open Classical in
/-- The fixes of a list of windows: those of the windows that have one, at the times of closing. -/
noncomputable def fixes (lv : Level) (ws : List (Int × List RadioMeasurement)) : List Fix :=
  ws.filterMap fun w => if h : ∃ p, FixAt lv w.2 p then some ⟨w.1, h.choose⟩ else none

/-- The fixes of a history on a single floor. -/
noncomputable def fixesOf (lv : Level) (cs : CommonSettings) (ms : List Measurement) : List Fix :=
  fixes lv (Floors.closedWindows [lv] cs ms)

/-- A place that moves. -/
structure Motion where
  time : Int
  place : XYPoint
  speed : XYPoint

/-- At rest at a fix. -/
def Motion.rest (f : Fix) : Motion := ⟨f.time, f.place, ⟨0, 0⟩⟩

/-- The weight of a new fix: from 0.9 without smoothing to 0.1 with full smoothing. -/
noncomputable def weight (cs : CommonSettings) : ℝ := 9 / 10 - 8 / 10 * min 1 (max 0 cs.smoothing)

open Classical in
/-- A motion is corrected by a new fix: it goes on with its speed, and then place and speed are corrected in the direction of the
fix. It starts again at the fix if the last one is more than ten seconds old, if the corrected speed is over 4 m/s (with the speed
constraint), or if the corrected place is not allowed (with barriers). -/
noncomputable def Motion.follow (cs : CommonSettings) (allowed : ℝ → ℝ → Prop) (k : Motion) (f : Fix) : Motion :=
  let dt : ℝ := ((f.time - k.time : Int) : ℝ) / 1000
  let a := weight cs
  let expected : XYPoint := ⟨k.place.x + k.speed.x * dt, k.place.y + k.speed.y * dt⟩
  let place : XYPoint := ⟨expected.x + a * (f.place.x - expected.x), expected.y + a * (f.place.y - expected.y)⟩
  let b := a ^ 2 / (2 - a)
  let speed : XYPoint := ⟨k.speed.x + b * ((f.place.x - expected.x) / dt), k.speed.y + b * ((f.place.y - expected.y) / dt)⟩
  if 10 < dt ∨ (cs.useSpeedConstraint = true ∧ 4 < Real.sqrt (speed.x ^ 2 + speed.y ^ 2)) ∨
      (cs.useBarriers = true ∧ ¬ allowed place.x place.y) then Motion.rest f
  else ⟨f.time, place, speed⟩

/-- The motion of a list of fixes: at rest at the first and at the second fix, then corrected by each further fix. -/
noncomputable def track (cs : CommonSettings) (allowed : ℝ → ℝ → Prop) : List Fix → Option Motion
  | [] => none
  | [f] => some (Motion.rest f)
  | _ :: f :: fs => some (fs.foldl (Motion.follow cs allowed) (Motion.rest f))

/-- The place shown for a place: moved into the box and rounded down to centimetres. -/
noncomputable def shown (b : Box) (p : XYPoint) : XYPoint :=
  ⟨downToCm (min (max p.x b.minCorner.x) b.maxCorner.x), downToCm (min (max p.y b.minCorner.y) b.maxCorner.y)⟩

/-- Each interval of the times is between `lo` and `hi` times the previous interval. -/
def Steady (lo hi : ℝ) (times : List Int) : Prop :=
  ∀ before a b c after, times = before ++ a :: b :: c :: after → lo * ((b - a : Int) : ℝ) ≤ ((c - b : Int) : ℝ) ∧ ((c - b : Int) : ℝ) ≤ hi * ((b - a : Int) : ℝ)

end Verif.Track
