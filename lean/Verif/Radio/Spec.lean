import Verif.Radio.Model
import Verif.Levels.Lemmas

/-!
# Specification vocabulary for the radio measurement preprocessor

Nothing here is used by the model.
-/

namespace Verif.Radio

open Verif.Levels

/-- Arithmetic mean. -/
noncomputable def mean (xs : List ℝ) : ℝ := xs.sum / xs.length

/-- The measurements of one transmitter in a window. -/
def ofTransmitter (id : String) (w : List RadioMeasurement) : List RadioMeasurement :=
  w.filter (fun m => m.data.id = id)

/-- The transmitter `tx` is known to the map `ls` (first level wins) and is `t`. -/
def Known (ls : List Level) (tx : String) (t : Transmitter XYZPoint) : Prop :=
  ∃ l, ls.find? (fun l => l.containsTransmitter tx) = some l ∧ (tx, t) ∈ l.transmitters ∧
    l.transmitter tx = some t

/-- The kind of signal is switched on by the settings. -/
def TypeEnabled (cs : CommonSettings) : RadioType → Prop
  | .WIFI | .WIFI_RTT => cs.signalsToUse ≠ .BLE
  | .BEACON | .BLUETOOTH | .EDDYSTONE => cs.signalsToUse ≠ .WIFI

/-- The admission rule of C16 in words of the settings and of the map. -/
def Admissible (ls : List Level) (cs : CommonSettings) (e : RadioData) : Prop :=
  TypeEnabled cs e.type ∧
  (cs.measurementType = .RSSI → cs.sigCutOffRss < e.rssi ∧ e.rssi < 0) ∧
  (cs.measurementType ≠ .RSSI → e.type = .WIFI_RTT) ∧
  (cs.useUnknownTransmitters = true ∨
    ∃ t, Known ls e.id t ∧ (t.type = .LOCATOR ↔ cs.useTracking = true))

/-- Calls on a `RadioMeasurementBuffer`. -/
inductive BufOp where
  | add (m : RadioMeasurement)
  | extract (lastStepTs : Int)

/-- State after one call. -/
noncomputable def stepBuf (s : Sorts) (cfg : BufferCfg) (b : BufferState) : BufOp → BufferState
  | .add m => addMeasurement cfg b m
  | .extract t => (extractMeasurements s cfg b t).2

/-- State of a fresh buffer after a sequence of calls. -/
noncomputable def runBuf (s : Sorts) (cfg : BufferCfg) (ops : List BufOp) : BufferState :=
  ops.foldl (stepBuf s cfg) .init

/-- The measurements added by a sequence of calls, in order. -/
def added : List BufOp → List RadioMeasurement
  | [] => []
  | .add m :: ops => m :: added ops
  | .extract _ :: ops => added ops

/-- Calls on a `MeasurementsPreprocessor`. -/
inductive Op where
  | update (m : Measurement)
  | extract (lastStepTs : Int)

/-- State after one call. -/
noncomputable def stepPre (s : Sorts) (cfg : Cfg) (st : State) : Op → State
  | .update m => updateMeasurements cfg st m
  | .extract t => (extractRadioMeasurements s cfg st t).2

/-- State after a sequence of calls on a fresh preprocessor whose uninitialised members hold `g`. -/
noncomputable def runPre (s : Sorts) (cfg : Cfg) (g : Int × SensorMeasurement × NmeaMeasurement) (ops : List Op) : State :=
  ops.foldl (stepPre s cfg) (.init g.1 g.2.1 g.2.2)

end Verif.Radio
