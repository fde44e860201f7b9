import Verif.Track.Spec

/-!
# Specification vocabulary for C124: what a client with its default settings answers in a building
-/

namespace Verif.Track

open Verif.Levels Verif.Nav Verif.Floors
open Verif.Geo (XYPoint)

/-- The last of the windows `ws` has a fix on the floor in use: the strongest transmitter of this floor in the window. -/
def FixNow (ls : List Level) (ws : List (Int × List RadioMeasurement)) (e : Level × Fix) : Prop :=
  FloorInUse ls ws e.1 ∧ ∃ before win, ws = before ++ [(e.2.time, win)] ∧ FixAt e.1 (onFloor e.1 win) e.2.place

open Classical in
/-- The fixes of a list of windows, each with its floor: those of the windows that have one on the floor then in use. -/
noncomputable def floorFixes (ls : List Level) (ws : List (Int × List RadioMeasurement)) : List (Level × Fix) :=
  (List.range ws.length).filterMap fun k =>
    if h : ∃ e, FixNow ls (ws.take (k + 1)) e then some h.choose else none

/-- A motion on a floor. `moving` says that a motion has gone on from one fix to the next before. -/
structure Journey where
  floor : Level
  motion : Motion
  moving : Bool

open Classical in
/-- A new fix. On another floor the motion starts again at rest. The first time that there is a second fix on the same floor the motion
starts again too; from then on the motion is corrected. -/
noncomputable def advance (cs : CommonSettings) (allowed : Level → ℝ → ℝ → Prop) (j : Option Journey) (e : Level × Fix) : Journey :=
  match j with
  | none => ⟨e.1, Motion.rest e.2, false⟩
  | some j =>
    if j.floor ≠ e.1 then ⟨e.1, Motion.rest e.2, j.moving⟩
    else if j.moving = false then ⟨e.1, Motion.rest e.2, true⟩
    else ⟨e.1, j.motion.follow cs (allowed e.1) e.2, true⟩

/-- The journey of a list of fixes. -/
noncomputable def journey (cs : CommonSettings) (allowed : Level → ℝ → ℝ → Prop) (es : List (Level × Fix)) : Option Journey :=
  es.foldl (fun j e => some (advance cs allowed j e)) none

end Verif.Track
