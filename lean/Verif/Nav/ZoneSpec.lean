import Verif.Nav.Spec

/-!
# Specification vocabulary for C94: a building with one floor and beacons, and a client without smoothing

Everything is said in terms of the measurements given to the client.
-/

namespace Verif.Nav

open Verif.Levels

/-- The signals of a history, cut into windows: since when the current window is open, its signals so far, and the
last window that was closed with the time of closing. -/
structure Windows where
  opened : Option Int
  pending : List RadioMeasurement
  closed : Option (Int × List RadioMeasurement)

/-- A signal is heard. The first signal of all opens a window. A signal that comes at least `span` ms after the opening
closes the window, belongs to it, and opens the next one. -/
def Windows.hear (span : Int) (w : Windows) (h : RadioMeasurement) : Windows :=
  let start := w.opened.getD h.ts
  if span ≤ h.ts - start then ⟨some h.ts, [], some (h.ts, w.pending ++ [h])⟩
  else ⟨some start, w.pending ++ [h], w.closed⟩

/-- The span of a window: the averaging time in whole milliseconds. -/
noncomputable def spanOf (cs : CommonSettings) : Int := ⌊1000 * cs.sigAveragingTime⌋

open Classical in
/-- Only radio measurements that the map and the settings admit count. -/
noncomputable def Windows.take (ls : List Level) (cs : CommonSettings) (w : Windows) (m : Measurement) : Windows :=
  match m.data with
  | .radio d => if Radio.Admissible ls cs d then w.hear (spanOf cs) ⟨d, m.ts⟩ else w
  | _ => w

/-- The windows of a history. -/
noncomputable def windows (ls : List Level) (cs : CommonSettings) (ms : List Measurement) : Windows :=
  ms.foldl (Windows.take ls cs) ⟨none, [], none⟩

/-- The measurement `m` after the history `ms` closes a window. -/
def Closes (ls : List Level) (cs : CommonSettings) (ms : List Measurement) (m : Measurement) : Prop :=
  Heard ls cs m ∧ spanOf cs ≤ m.ts - (windows ls cs ms).opened.getD m.ts

/-- The mean strength of a transmitter in a window. -/
noncomputable def meanRssi (w : List RadioMeasurement) (id : String) : ℝ :=
  Radio.mean ((Radio.ofTransmitter id w).map (·.data.rssi))

/-- The averages of a closed window: one per transmitter heard, in the order of the ids, with the mean strength and the power
of one of its signals. -/
structure HandedOut (win : List RadioMeasurement) (radio : List RadioData) : Prop where
  sorted : (radio.map RadioData.id).Pairwise (· < ·)
  ids : ∀ id, (∃ e ∈ radio, e.id = id) ↔ ∃ m ∈ win, m.data.id = id
  rssi : ∀ e ∈ radio, e.rssi = meanRssi win e.id
  power : ∀ e ∈ radio, ∃ m ∈ win, m.data.id = e.id ∧ m.data.power = e.power

/-- The measured distance of a transmitter whose signals in the window are all Wi-Fi RTT: the mean without the offset. -/
def RttDistances (offset : ℝ) (win : List RadioMeasurement) (radio : List RadioData) : Prop :=
  ∀ e ∈ radio, (∀ m ∈ win, m.data.id = e.id → m.data.type = .WIFI_RTT) →
    e.distance = Radio.mean ((Radio.ofTransmitter e.id win).map (·.data.distance)) - offset

/-- The transmitter was heard in the window and has the greatest mean strength, among equals the smallest id. -/
def Strongest (w : List RadioMeasurement) (b : String) : Prop :=
  (∃ m ∈ w, m.data.id = b) ∧
  ∀ m ∈ w, meanRssi w m.data.id < meanRssi w b ∨ (meanRssi w m.data.id = meanRssi w b ∧ b ≤ m.data.id)

/-- Settings that use only the indoor estimator, with plain windows of signals, and neither stops nor graph (with or without
barometer). -/
structure Windowed (cs : CommonSettings) : Prop where
  shift : cs.sigWindowShift = 0
  span : 1 / 1000 ≤ cs.sigAveragingTime
  closest : cs.useClosestAps = false
  timeSmoothing : cs.useTimeSmoothing = false
  stops : cs.useStops = false
  graph : cs.useGraphProjection = false
  gps : cs.useGps = false
  instantGps : cs.useInstantGpsPosition = false
  outside : cs.useGpsOutsideMap = false
  reckoning : 0 ≤ cs.deadReckoningTime
  noSignal : 0 < cs.noSignalTimeThreshold
  noAction : 0 < cs.noActionTimeThreshold

/-- Settings with plain windows of signals, and neither stops nor graph (with or without satellites, barometer and smoothing). -/
structure Framed (cs : CommonSettings) : Prop where
  shift : cs.sigWindowShift = 0
  span : 1 / 1000 ≤ cs.sigAveragingTime
  closest : cs.useClosestAps = false
  timeSmoothing : cs.useTimeSmoothing = false
  stops : cs.useStops = false
  graph : cs.useGraphProjection = false
  outside : cs.useGpsOutsideMap = false
  reckoning : 0 ≤ cs.deadReckoningTime
  noSignal : 0 < cs.noSignalTimeThreshold
  noAction : 0 < cs.noActionTimeThreshold

theorem Windowed.framed {cs : CommonSettings} (h : Windowed cs) : Framed cs :=
  ⟨h.shift, h.span, h.closest, h.timeSmoothing, h.stops, h.graph, h.outside, h.reckoning, h.noSignal, h.noAction⟩

/-- The same settings without barometer. -/
structure Direct (cs : CommonSettings) : Prop extends Windowed cs where
  barometer : cs.useBarometer = false

/-- Settings that pass the positions of the indoor estimator on as they are. -/
structure Plain (cs : CommonSettings) : Prop extends Direct cs where
  smoothing : cs.useSmoothing = false

/-- Settings that locate by zones. -/
structure ByZones (cs : CommonSettings) : Prop where
  algorithm : cs.useAlgorithm ≠ .KNN
  radiomap : cs.useRadiomap = false
  txPower : cs.useTxPower = false
  unknown : cs.useUnknownTransmitters = false
  strength : cs.measurementType = .RSSI
  cutOff : -1000 ≤ cs.sigCutOffRss

/-- Settings that locate by zones and pass the positions on as they are. -/
structure PlainZones (cs : CommonSettings) : Prop extends Plain cs, ByZones cs

/-- Rounded down to centimetres. -/
noncomputable def downToCm (x : ℝ) : ℝ := (⌊x * 100⌋ : ℝ) / 100

end Verif.Nav
