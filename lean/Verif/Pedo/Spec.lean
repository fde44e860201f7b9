import Verif.Pedo.Model

/-!
# Specification vocabulary for the pedometer
-/

namespace Verif.Pedo

open Verif

/-- A call of the pedometer: one sample (`src/sensor_fusion`), a list of accelerometer samples
(stand-alone version), or a request for the steps. -/
inductive PedoOp where
  | sample (m : SensorMeasurement)
  | batch (ms : List SensorMeasurement)
  | steps

/-- One call; the result is the list of steps returned by `calculateSteps`. -/
noncomputable def pedoStep (s : PedoState) : PedoOp → Option (PedoState × List Step)
  | .sample m => (update s m).map (fun s => (s, []))
  | .batch ms => (updateBatch s ms).map (fun s => (s, []))
  | .steps => calculateSteps s

/-- One call, with the record of everything returned so far. -/
noncomputable def pedoRecord (st : PedoState × List (List Step)) (op : PedoOp) :
    Option (PedoState × List (List Step)) :=
  (pedoStep st.1 op).map (fun r => (r.1, st.2 ++ [r.2]))

/-- A history of calls on a new pedometer, with the results of all calls. -/
noncomputable def pedoRun (ops : List PedoOp) : Option (PedoState × List (List Step)) :=
  ops.foldlM pedoRecord ({}, [])

/-- The accelerometer samples of one call. -/
def opSamples : PedoOp → List SensorMeasurement
  | .sample m => if m.data.type = SensorType.ACCELEROMETER then [m] else []
  | .batch ms => ms
  | .steps => []

/-- All accelerometer samples of a history. -/
def samples (ops : List PedoOp) : List SensorMeasurement := ops.flatMap opSamples

/-- The time stamps do not decrease. -/
def Ordered (ms : List SensorMeasurement) : Prop := ms.Pairwise (fun a b => a.ts ≤ b.ts)

/-- The arithmetic mean of the magnitudes. -/
noncomputable def meanMagn (l : List SensorMeasurement) : ℝ :=
  (l.map (fun m => magnitude m.data.values)).sum / l.length

/-- The samples less than `T` before the time `now`. -/
def within (now T : Int) (ms : List SensorMeasurement) : List SensorMeasurement :=
  ms.filter (fun m => now - m.ts < T)

/-- The filtered magnitude after the samples `ms ++ [m]`: the mean of the last 200 ms, minus the mean of
the last 2.5 s to whose sum the former is added once more. -/
noncomputable def filteredValue (ms : List SensorMeasurement) (m : SensorMeasurement) : ℝ :=
  let short := meanMagn (within m.ts 200 (ms ++ [m]))
  let long := within m.ts 2500 (ms ++ [m])
  short - (meanMagn long + short / long.length)

/-- The level a filtered magnitude has to cross for a step, in m/s²: one twentieth of the gravity. -/
noncomputable def threshold : ℝ := 9.80665 / 20

/-- The time of the last step in a list of reported steps; -1 before the first one. -/
def lastStepTs (steps : List Step) : Int := (steps.getLast?.map Step.ts).getD (-1)

/-- The calls made by `SensorFusion::calculateDisplacement`: each measurement is given to the pedometer
and the steps are asked for. -/
def fusionOps (ms : List SensorMeasurement) : List PedoOp :=
  ms.flatMap (fun m => [PedoOp.sample m, PedoOp.steps])

/-- The accelerometer samples in a list of sensor measurements. -/
def accelOf (ms : List SensorMeasurement) : List SensorMeasurement :=
  ms.filter (fun m => m.data.type = SensorType.ACCELEROMETER)

end Verif.Pedo
