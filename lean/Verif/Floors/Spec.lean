import Verif.Nav.ZoneSpec
import Mathlib.Data.List.Dedup

/-!
# Specification vocabulary for C118: a building with several floors

Everything is said in terms of the measurements given to the client and of the map.
-/

namespace Verif.Floors

open Verif.Levels Verif.Nav

/-- The windows that were closed in a history, in order, each with the time of closing. -/
noncomputable def closedWindows (ls : List Level) (cs : CommonSettings) (ms : List Measurement) :
    List (Int × List RadioMeasurement) :=
  (List.range ms.length).filterMap fun k =>
    open Classical in
    if ∃ m, ms[k]? = some m ∧ Closes ls cs (ms.take k) m then (windows ls cs (ms.take (k + 1))).closed else none

/-- The signals of a window that come from transmitters of the floor. -/
def onFloor (lv : Level) (win : List RadioMeasurement) : List RadioMeasurement :=
  win.filter fun m => (lv.transmitter m.data.id).isSome

/-- The ids of the transmitters heard in a window, without repetitions. -/
def idsOf (win : List RadioMeasurement) : List String := (win.map (·.data.id)).dedup

/-- How strongly a floor is heard in a window: the mean, over its transmitters heard, of their mean strengths, divided by
`1 + n / (10 N)` where `n` of the `N` transmitters heard are on the floor. (Strengths are negative.) -/
noncomputable def strength (win : List RadioMeasurement) (lv : Level) : ℝ :=
  Radio.mean ((idsOf (onFloor lv win)).map (meanRssi win)) / (1 + (idsOf (onFloor lv win)).length / (10 * (idsOf win).length))

/-- The floor of a window: of the floors with a transmitter heard, the strongest, among equals the first of the map. -/
def FloorOf (ls : List Level) (win : List RadioMeasurement) (lv : Level) : Prop :=
  ∃ before after, ls = before ++ lv :: after ∧ onFloor lv win ≠ [] ∧
    (∀ k ∈ before, onFloor k win ≠ [] → strength win k < strength win lv) ∧
    (∀ k ∈ after, onFloor k win ≠ [] → strength win k ≤ strength win lv)

/-- The floor in use and how often each floor was detected. -/
structure Votes where
  used : Option String
  count : String → ℕ

/-- A window of floor `d`. The first window of all decides the floor in use. A floor that has come up four times is used
when it comes up again, and then the other floors start from nothing. -/
def Votes.see (v : Votes) (d : String) : Votes :=
  if 4 ≤ v.count d then ⟨some d, fun f => if f = d then 4 else 0⟩
  else ⟨some (v.used.getD d), fun f => if f = d then v.count d + 1 else v.count f⟩

/-- The votes of a sequence of floors. -/
def votes (ds : List String) : Votes := ds.foldl Votes.see ⟨none, fun _ => 0⟩

/-- The floor in use after the windows `ws`: each window has a floor, and these floors are voted on. -/
def FloorInUse (ls : List Level) (ws : List (Int × List RadioMeasurement)) (lv : Level) : Prop :=
  lv ∈ ls ∧ ∃ ds, List.Forall₂ (fun w d => FloorOf ls w.2 d) ws ds ∧ (votes (ds.map Level.id)).used = some lv.id

/-- The last of the windows `ws` with a signal of the floor is `win`, closed at `t0`. -/
def LastHeardOn (lv : Level) (ws : List (Int × List RadioMeasurement)) (t0 : Int) (win : List RadioMeasurement) : Prop :=
  ∃ before after, ws = before ++ (t0, win) :: after ∧ onFloor lv win ≠ [] ∧ ∀ w ∈ after, onFloor lv w.2 = []

/-- The measurement `m` after the history `ms` closes a window with a signal of the floor. -/
def ClosesOn (ls : List Level) (cs : CommonSettings) (lv : Level) (ms : List Measurement) (m : Measurement) : Prop :=
  Closes ls cs ms m ∧ ∃ t0 win, (windows ls cs (ms ++ [m])).closed = some (t0, win) ∧ onFloor lv win ≠ []

end Verif.Floors
