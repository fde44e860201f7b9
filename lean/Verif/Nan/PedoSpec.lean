import Verif.Nan.PedoModel
import Verif.Nan.Spec
import Verif.Pedo.Spec

/-!
# Specification for C147: an accelerometer sample that is not a number
-/

namespace Verif.Nan.Walk

variable {α : Type} (A : Arithmetic α)

/-- A call of the pedometer: one measurement, a list of accelerometer samples (stand-alone version), or a request for the steps. -/
inductive Op (α : Type) where
  | sample (m : Msr α)
  | batch (ms : List (Msr α))
  | steps

/-- One call; the result is the list of steps returned. -/
noncomputable def call (s : State α) : Op α → Option (State α × List (Step α))
  | .sample m => (update A s m).map (fun s => (s, []))
  | .batch ms => (updateBatch A s ms).map (fun s => (s, []))
  | .steps => calculateSteps A s

/-- One call, with the record of everything returned so far. -/
noncomputable def record (st : State α × List (List (Step α))) (op : Op α) : Option (State α × List (List (Step α))) :=
  (call A st.1 op).map (fun r => (r.1, st.2 ++ [r.2]))

/-- A history of calls on a new pedometer, with the results of all calls. -/
noncomputable def run (ops : List (Op α)) : Option (State α × List (List (Step α))) := ops.foldlM (record A) ({}, [])

/-- The accelerometer samples of one call. -/
def opSamples : Op α → List (Msr α)
  | .sample m => if m.type = SensorType.ACCELEROMETER then [m] else []
  | .batch ms => ms
  | .steps => []

/-- All accelerometer samples of a history. -/
def samples (ops : List (Op α)) : List (Msr α) := ops.flatMap opSamples

/-- The time stamps do not decrease. -/
def Ordered (ms : List (Msr α)) : Prop := ms.Pairwise (fun a b => a.ts ≤ b.ts)

/-- A measurement whose values are numbers. -/
def ofMeasurement (m : SensorMeasurement) : Msr (Option ℝ) :=
  ⟨m.data.type, ⟨some m.data.values.x, some m.data.values.y, some m.data.values.z⟩, m.ts⟩

/-- A call whose measurements are numbers. -/
def ofOp : Pedo.PedoOp → Op (Option ℝ)
  | .sample m => .sample (ofMeasurement m)
  | .batch ms => .batch (ms.map ofMeasurement)
  | .steps => .steps

/-- A step whose length is a number. -/
def ofStep (s : Pedo.Step) : Step (Option ℝ) := ⟨s.ts, some s.len⟩

end Verif.Nan.Walk
