import Verif.Nan.Model
import Verif.Pedo.Model

/-!
# Model of the pedometer over numbers that need not be numbers

`src/sensor_fusion/pedometer.cpp` once more, over any arithmetic that has values that are not numbers (NaN). Times are whole numbers
and step times are averaged as in `Verif/Pedo/Model.lean`, so `timeBetweenSteps` and `popOld` are taken from there. `none` stands for
undefined behaviour.
-/

namespace Verif.Nan.Walk

open Verif.Pedo (AVERAGING_TIME_INTERVAL_MS FILTER_TIME_INTERVAL_MS UPDATE_TIME_INTERVAL_MS MIN_TIME_BETWEEN_STEPS_MS
  STEP_LENGTH_CONST MINIMAL_THRESHOLD_VALUE MAX_STEP_TIME timeBetweenSteps popOld trimTimes)

variable {α : Type} (A : Arithmetic α)

/-- `pedometer.h` 21-29: `struct Magnitude`. -/
structure Magnitude (α : Type) where
  ts : Int
  value : α

/-- `pedometer.h` 31-38: `struct Step`. -/
structure Step (α : Type) where
  ts : Int
  len : α

/-- `pedometer.h` 52-61: the members of `Pedometer` with their initial values. -/
structure State (α : Type) where
  accel : List (Msr α) := []
  mags : List (Magnitude α) := []
  times : List Int := []
  magSize : ℕ := 0
  possibleTs : Int := -1
  stepTime : Int := -1
  isStep : Bool := false

/-- `pedometer.cpp` 81-83, 90-92: move the left border to the right while the sample is at least `T` old. -/
def scan (last T : Int) : List (Msr α) → Option (List (Msr α))
  | [] => none
  | m :: ms => if last - m.ts ≥ T then scan last T ms else some (m :: ms)

/-- `pedometer.cpp` 85-87, 94-96: `std::accumulate` of the magnitudes. -/
noncomputable def sumMagn (l : List (Msr α)) : α := l.foldl (fun sum m => A.add sum (magnitude A m.values)) (A.lit 0)

/-- `pedometer.cpp` 77-109: `calculateFilteredAccMagnitudes`. -/
noncomputable def filtered (accel : List (Msr α)) : Option (Magnitude α) :=
  match accel.getLast? with
  | none => none
  | some last =>
    match scan last.ts AVERAGING_TIME_INTERVAL_MS accel, scan last.ts FILTER_TIME_INTERVAL_MS accel with
    | some aver, some filt =>
      if aver.length = 0 ∨ filt.length = 0 then some ⟨0, A.lit 0⟩
      else
        let filterMagnitude := A.div (sumMagn A filt) (A.lit filt.length)
        let averMagnitude := A.div (A.add (sumMagn A aver) filterMagnitude) (A.lit aver.length)
        some ⟨last.ts, A.sub filterMagnitude averMagnitude⟩
    | _, _ => none

/-- `pedometer.cpp` 47-56: take in one accelerometer sample. -/
noncomputable def push (s : State α) (msr : Msr α) : Option (State α) :=
  let accel := s.accel ++ [msr]
  match filtered A accel with
  | none => none
  | some magn =>
    let mags := if magn.ts ≠ 0 then s.mags ++ [magn] else s.mags
    match popOld Msr.ts (2 * AVERAGING_TIME_INTERVAL_MS) accel with
    | none => none
    | some accel => some { s with accel := accel, mags := mags }

/-- `pedometer.cpp` 41-70: `update`. -/
noncomputable def update (s : State α) (msr : Msr α) : Option (State α) :=
  let s := { s with magSize := max s.mags.length 1 }
  if msr.type = SensorType.ACCELEROMETER then push A s msr else some s

/-- `standalone_algorithms/pedometer/src/pedometer.cpp` 23-40: `update` of the stand-alone pedometer. -/
noncomputable def updateBatch (s : State α) (msrs : List (Msr α)) : Option (State α) :=
  msrs.foldlM (push A) { s with magSize := max s.mags.length 1 }

/-- `pedometer.cpp` 170-173: the left border, an index, starting from the right one. -/
def leftBorder (mags : List (Magnitude α)) (rightTs T : Int) : ℕ → Option ℕ
  | 0 => some 0
  | n + 1 =>
    match mags[n + 1]? with
    | none => none
    | some m => if rightTs - m.ts ≤ T then leftBorder mags rightTs T n else some (n + 1)

open Classical in
/-- `pedometer.cpp` 175-177: the value of `std::max_element`; for an empty range the iterator is the right border. -/
noncomputable def maxElement (right : Magnitude α) : List (Magnitude α) → α
  | [] => right.value
  | a :: l => l.foldl (fun best m => if A.lt best m.value then m.value else best) a.value

open Classical in
/-- `pedometer.cpp` 178-180: the value of `std::min_element`. -/
noncomputable def minElement (right : Magnitude α) : List (Magnitude α) → α
  | [] => right.value
  | a :: l => l.foldl (fun best m => if A.lt m.value best then m.value else best) a.value

/-- `pedometer.cpp` 167-185: `calculateStepLength` with the right border given by its index. -/
noncomputable def stepLength (mags : List (Magnitude α)) (T : Int) (right : ℕ) : Option α :=
  match mags[right]? with
  | none => none
  | some r =>
    match leftBorder mags r.ts T right with
    | none => none
    | some left =>
      let range := (mags.drop left).take (right - left)
      some (A.mul (A.lit STEP_LENGTH_CONST) (A.sqrt (A.sqrt (A.sub (maxElement A r range) (minElement A r range)))))

open Classical in
/-- `pedometer.cpp` 127-156: the loop body for index `i`. -/
noncomputable def stepBody (between : ℝ) (i : ℕ) (st : State α × List (Step α)) : Option (State α × List (Step α)) :=
  let (s, steps) := st
  if i = 0 then none
  else
    match s.mags[i]?, s.mags[i - 1]? with
    | some curAcc, some prevAcc =>
      let s := if s.isStep = false ∧ A.lt prevAcc.value (A.lit MINIMAL_THRESHOLD_VALUE) ∧
            A.lt (A.lit MINIMAL_THRESHOLD_VALUE) curAcc.value ∧
            curAcc.ts - s.possibleTs > MIN_TIME_BETWEEN_STEPS_MS ∧ between > 0
          then { s with isStep := true, possibleTs := curAcc.ts } else s
      if s.isStep = true then
        match stepLength A s.mags UPDATE_TIME_INTERVAL_MS i with
        | none => none
        | some stepLength =>
          let times := if s.possibleTs - s.stepTime < MAX_STEP_TIME
            then s.times ++ [s.possibleTs - s.stepTime] else s.times
          some ({ s with times := times, stepTime := s.possibleTs, isStep := false },
            steps ++ [⟨s.possibleTs, stepLength⟩])
      else some (s, steps)
    | _, _ => none

/-- `pedometer.cpp` 127: the loop over the indices from `i` on, `n` of them. -/
noncomputable def stepLoop (between : ℝ) : ℕ → ℕ → State α × List (Step α) → Option (State α × List (Step α))
  | _, 0, st => some st
  | i, n + 1, st => (stepBody A between i st).bind (stepLoop between (i + 1) n)

/-- `pedometer.cpp` 111-165: `calculateSteps`. -/
noncomputable def calculateSteps (s : State α) : Option (State α × List (Step α)) :=
  if s.mags.length ≤ 3 then some (s, [])
  else
    match stepLoop A (timeBetweenSteps s.times) s.magSize (s.mags.length - s.magSize) (s, []) with
    | none => none
    | some (s, steps) =>
      match popOld Magnitude.ts (2 * UPDATE_TIME_INTERVAL_MS) s.mags with
      | none => none
      | some mags => some ({ s with mags := mags, times := trimTimes s.times }, steps)

end Verif.Nan.Walk
