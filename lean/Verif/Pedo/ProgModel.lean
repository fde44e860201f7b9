import Verif.Pedo.Model

/-!
# Model of the step counting programs: `standalone_algorithms/pedometer/{examples/main.cpp,tests/pedometer_test.cpp}`

A line of the log is given by what the four stream extractions yield, `none` if one of them fails; a file that cannot be
opened has no lines. `none` as a result means undefined behaviour in the pedometer. The missing command line argument and
the text on the console are not modelled, nor the comparison of the result with the recorded truth.
-/

namespace Verif.Pedo

open Verif

/-- What `iss >> msr.ts >> msr.values.x >> msr.values.y >> msr.values.z` yields (`examples/main.cpp` 21-23). -/
structure AccLine where
  ts : Int
  x : ℝ
  y : ℝ
  z : ℝ

/-- `examples/main.cpp` 19-27: the loop over the lines. -/
def parseLines : List (Option AccLine) → List SensorMeasurement
  | some l :: ls => ⟨⟨.ACCELEROMETER, ⟨l.x, l.y, l.z⟩⟩, l.ts⟩ :: parseLines ls
  | _ => []

/-- `examples/main.cpp` 8-30: `parseMeasurements`; the first line is skipped. -/
def parseMeasurements (file : List (Option AccLine)) : List SensorMeasurement := parseLines file.tail

/-- `examples/main.cpp` 45-52: the loop, the state being the pedometer and the counter. -/
noncomputable def countLoop : List SensorMeasurement → PedoState → ℕ → Option ℕ
  | [], _, stepCounter => some stepCounter
  | msr :: ms, pedometer, stepCounter =>
    match updateBatch pedometer [msr] with
    | none => none
    | some p =>
      match calculateSteps p with
      | none => none
      | some (p', steps) => countLoop ms p' (stepCounter + steps.length)

/-- `examples/main.cpp` 32-57: `main`, as the printed number of steps. -/
noncomputable def pedometerMain (file : List (Option AccLine)) : Option ℕ := countLoop (parseMeasurements file) {} 0

/-- `tests/pedometer_test.cpp` 56-66: the loop, with the counter and the sum of the lengths. -/
noncomputable def countLenLoop : List SensorMeasurement → PedoState → ℕ → ℝ → Option (ℕ × ℝ)
  | [], _, stepCounter, stepLen => some (stepCounter, stepLen)
  | msr :: ms, pedometer, stepCounter, stepLen =>
    match updateBatch pedometer [msr] with
    | none => none
    | some p =>
      match calculateSteps p with
      | none => none
      | some (p', steps) =>
        countLenLoop ms p' (stepCounter + steps.length) (steps.foldl (fun sum s => sum + s.len) stepLen)

/-- `tests/pedometer_test.cpp` 51-69: `getStepsNumLenPair`; the mean of no steps is not a number, `none` here. -/
noncomputable def getStepsNumLenPair (measurements : List SensorMeasurement) : Option (ℕ × Option ℝ) :=
  match countLenLoop measurements {} 0 0 with
  | none => none
  | some (stepCounter, stepLen) => some (stepCounter, if stepCounter = 0 then none else some (stepLen / stepCounter))

end Verif.Pedo
