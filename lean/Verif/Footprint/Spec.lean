import Verif.Nav.SensorProps

/-!
# Specification vocabulary for C121: how much a client keeps
-/

namespace Verif.Footprint

open Verif.Levels Verif.Nav

/-- The radio signals that the client keeps. -/
def signals (s : State) : ℕ := s.pre.buffer.measurements.length

/-- The accelerometer samples that the client keeps. -/
def samples (s : State) : ℕ := s.fusion.pedometer.accel.length

/-- The filtered accelerations that the client keeps. -/
def magnitudes (s : State) : ℕ := s.fusion.pedometer.mags.length

/-- Everything else that the client keeps in containers: times between steps, pressures, votes for floors, satellite fixes. -/
def others (s : State) : ℕ :=
  s.fusion.pedometer.times.length + (s.level.barometer.newM.length + s.level.barometer.stored.length) +
    s.level.history.floorCnt.length + s.outdoor.buf.length

open Classical in
/-- The times of the admitted radio messages. -/
noncomputable def heardTimes (ls : List Level) (cs : CommonSettings) (ms : List Measurement) : List Int :=
  (ms.filter (fun m => decide (Heard ls cs m))).map (·.ts)

/-- For each message, of any kind, at which the last sensor message is an accelerometer sample: the time of that sample. -/
def sampleTimes (g : SensorMeasurement) (ms : List Measurement) : List Int :=
  (((fedSensors g ms).map Prod.fst).filter (fun m => m.data.type = .ACCELEROMETER)).map (·.ts)

/-- How many of the times are at most `w` milliseconds older than the last one. -/
noncomputable def recent (ts : List Int) (w : ℝ) : ℕ :=
  open Classical in (ts.filter (fun t => decide (∀ z, ts.getLast? = some z → ((z - t : Int) : ℝ) ≤ w))).length

/-- Positive times that do not decrease, and the first message is one of a sensor. -/
structure Orderly (ms : List Measurement) : Prop where
  pos : ∀ m ∈ ms, 0 < m.ts
  ordered : Ordered ms
  sensor : ∀ m, ms.head? = some m → ∃ d, m.data = .sensor d

end Verif.Footprint
