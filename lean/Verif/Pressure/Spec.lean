import Verif.Floors.Spec
import Verif.LevelEst.BarometerProps

/-!
# Specification vocabulary for C127: a building with several floors and a pressure sensor

Everything is said in terms of the measurements given to the client and of the map.  `g` is the memory the client starts
with: it only matters before the first sensor measurement.
-/

namespace Verif.Pressure

open Verif.Levels Verif.Nav Verif.Floors

/-- The pressure the client sees with the last measurement of a history: it looks at the last sensor measurement, however old,
and takes its value if that was a pressure. -/
def pressureSeen (g : Garbage) (ms : List Measurement) : Option ℝ :=
  let s := lastSensor g.sensor ms
  if s.data.type = .BAROMETER then some s.data.values.x else none

/-- The pressures counted in a history: every measurement but the first (of any kind) counts the pressure then seen. -/
def counted (g : Garbage) (ms : List Measurement) : List ℝ :=
  ((List.range ms.length).drop 1).filterMap fun k => pressureSeen g (ms.take (k + 1))

/-- The floor may change: fewer than 201 pressures were counted, or the means of the last 101 and of the (up to) 101 before
them differ by more than two metres of height. -/
def Free (g : Garbage) (ms : List Measurement) : Prop :=
  (counted g ms).length < 201 ∨ LevelEst.Climbed (counted g ms)

/-- The floor that the signals alone give: none before the first window is closed. -/
def BySignals (ls : List Level) (cs : CommonSettings) (ms : List Measurement) : Option Level → Prop
  | none => closedWindows ls cs ms = []
  | some lv => FloorInUse ls (closedWindows ls cs ms) lv

/-- The floor in use: the one that the signals gave when the floor was last free to change. -/
def FloorUsed (ls : List Level) (cs : CommonSettings) (g : Garbage) (ms : List Measurement) (o : Option Level) : Prop :=
  ∃ past rest, ms = past ++ rest ∧ Free g past ∧ (∀ a b, rest = a ++ b → a ≠ [] → ¬ Free g (past ++ a)) ∧ BySignals ls cs past o

/-- The measurement `m` after the history `ms` gives a place: it closes the window `win`, in which the floor in use is heard. -/
structure Places (ls : List Level) (cs : CommonSettings) (g : Garbage) (ms : List Measurement) (m : Measurement) (lv : Level)
    (win : List RadioMeasurement) : Prop where
  closes : Closes ls cs ms m
  window : (windows ls cs (ms ++ [m])).closed = some (m.ts, win)
  floor : FloorUsed ls cs g (ms ++ [m]) (some lv)
  heard : onFloor lv win ≠ []

/-- The last place was given at the time `t0`, with the floor `lv` in use and by the window `win`. -/
def LastPlace (ls : List Level) (cs : CommonSettings) (g : Garbage) (ms : List Measurement) (lv : Level) (t0 : Int)
    (win : List RadioMeasurement) : Prop :=
  ∃ a m b, ms = a ++ m :: b ∧ Places ls cs g a m lv win ∧ m.ts = t0 ∧
    ∀ b1 m' b2, b = b1 ++ m' :: b2 → ∀ lv' win', ¬ Places ls cs g (a ++ m :: b1) m' lv' win'

/-- No place was given so far. -/
def NoPlace (ls : List Level) (cs : CommonSettings) (g : Garbage) (ms : List Measurement) : Prop :=
  ∀ a m b, ms = a ++ m :: b → ∀ lv win, ¬ Places ls cs g a m lv win

/-- A fix of the satellite receiver was the last sensor measurement at some time of the history. -/
def FixSeen (g : Garbage) (ms : List Measurement) : Prop :=
  ∃ a e b, ms = a ++ e :: b ∧ (lastSensor g.sensor (a ++ [e])).data.type = .LOCATION

/-- Settings that locate by zones with a barometer, and pass the positions on as they are. -/
structure PressureZones (cs : CommonSettings) : Prop extends Windowed cs, ByZones cs where
  barometer : cs.useBarometer = true
  smoothing : cs.useSmoothing = false

end Verif.Pressure
