import Verif.Arith
import Verif.Input
import Mathlib.Analysis.Real.Sqrt

/-!
# Model of the pedometer: `src/sensor_fusion/pedometer.{h,cpp}`

`none` stands for undefined behaviour (dereferencing `end()`, `back()` of an empty deque, an index out
of range).  `double` is modelled by ℝ, `long long` by unbounded integers.  The debug output is left out.
-/

namespace Verif.Pedo

open Verif

/-- `vector3d.cpp` 24-27: `Vector3d::magnitude`. -/
noncomputable def magnitude (v : Vector3d) : ℝ := Real.sqrt (v.x * v.x + v.y * v.y + v.z * v.z)

/-- `pedometer.h` 21-29: `struct Magnitude`. -/
structure Magnitude where
  ts : Int
  value : ℝ

/-- `pedometer.h` 31-38: `struct Step`. -/
structure Step where
  ts : Int
  len : ℝ

/-- `pedometer.cpp` 28. -/
def AVERAGING_TIME_INTERVAL_MS : Int := 2500
/-- `pedometer.cpp` 29. -/
def FILTER_TIME_INTERVAL_MS : Int := 200
/-- `pedometer.cpp` 31. -/
def UPDATE_TIME_INTERVAL_MS : Int := 700
/-- `pedometer.cpp` 32. -/
def MIN_TIME_BETWEEN_STEPS_MS : Int := 300
/-- `pedometer.cpp` 34. -/
noncomputable def STEP_LENGTH_CONST : ℝ := 0.52
/-- `pedometer.cpp` 35. -/
noncomputable def MINIMAL_THRESHOLD_VALUE : ℝ := 0.05 * 9.80665
/-- `pedometer.cpp` 37. -/
def MINIMAL_NUMBER_OF_STEPS : ℕ := 5
/-- `pedometer.cpp` 38. -/
def MAXIMUM_NUMBER_OF_STEPS : ℕ := 50
/-- `pedometer.cpp` 39. -/
def MAX_STEP_TIME : Int := 2000

/-- `pedometer.h` 52-61: the members of `Pedometer` with their initial values. -/
structure PedoState where
  accel : List SensorMeasurement := []
  mags : List Magnitude := []
  times : List Int := []
  magSize : ℕ := 0
  possibleTs : Int := -1
  stepTime : Int := -1
  isStep : Bool := false

/-- `pedometer.cpp` 81-83, 90-92: move the left border to the right while the sample is at least `T`
old; the loop has no end check, so running out of samples is undefined behaviour. -/
def scan (last T : Int) : List SensorMeasurement → Option (List SensorMeasurement)
  | [] => none
  | m :: ms => if last - m.ts ≥ T then scan last T ms else some (m :: ms)

/-- `pedometer.cpp` 85-87, 94-96: `std::accumulate` of the magnitudes. -/
noncomputable def sumMagn (l : List SensorMeasurement) : ℝ :=
  l.foldl (fun sum m => sum + magnitude m.data.values) 0

/-- `pedometer.cpp` 77-109: `calculateFilteredAccMagnitudes`. -/
noncomputable def calculateFilteredAccMagnitudes (accel : List SensorMeasurement) : Option Magnitude :=
  match accel.getLast? with
  | none => none
  | some last =>
    match scan last.ts AVERAGING_TIME_INTERVAL_MS accel, scan last.ts FILTER_TIME_INTERVAL_MS accel with
    | some aver, some filt =>
      if aver.length = 0 ∨ filt.length = 0 then some ⟨0, 0⟩
      else
        let filterMagnitude := sumMagn filt ÷ filt.length
        let averMagnitude := (sumMagn aver + filterMagnitude) ÷ aver.length
        some ⟨last.ts, filterMagnitude - averMagnitude⟩
    | _, _ => none

/-- `pedometer.cpp` 52-56, 158-159: pop from the front while the buffer spans more than `limit`;
`back()` of an empty deque is undefined behaviour. -/
def popOld {α : Type} (ts : α → Int) (limit : Int) : List α → Option (List α)
  | [] => none
  | a :: l => if ts ((a :: l).getLast (by simp)) - ts a > limit then popOld ts limit l else some (a :: l)

/-- `pedometer.cpp` 47-56: take in one accelerometer sample.  A magnitude with time stamp 0 counts as
"nothing calculated" (line 49). -/
noncomputable def push (s : PedoState) (msr : SensorMeasurement) : Option PedoState :=
  let accel := s.accel ++ [msr]
  match calculateFilteredAccMagnitudes accel with
  | none => none
  | some magn =>
    let mags := if magn.ts ≠ 0 then s.mags ++ [magn] else s.mags
    match popOld Stamped.ts (2 * AVERAGING_TIME_INTERVAL_MS) accel with
    | none => none
    | some accel => some { s with accel := accel, mags := mags }

/-- `pedometer.cpp` 41-70: `update`. -/
noncomputable def update (s : PedoState) (msr : SensorMeasurement) : Option PedoState :=
  let s := { s with magSize := max s.mags.length 1 }
  if msr.data.type = SensorType.ACCELEROMETER then push s msr else some s

/-- `standalone_algorithms/pedometer/src/pedometer.cpp` 23-40: `update` of the stand-alone pedometer,
which takes a list of accelerometer samples.  The rest of the stand-alone pedometer is textually the
same as `src/sensor_fusion/pedometer.cpp` (debug output apart); its samples carry no sensor type. -/
noncomputable def updateBatch (s : PedoState) (msrs : List SensorMeasurement) : Option PedoState :=
  msrs.foldlM push { s with magSize := max s.mags.length 1 }

/-- `pedometer.cpp` 170-173: the left border, an index, starting from the right one. -/
def leftBorder (mags : List Magnitude) (rightTs T : Int) : ℕ → Option ℕ
  | 0 => some 0
  | n + 1 =>
    match mags[n + 1]? with
    | none => none
    | some m => if rightTs - m.ts ≤ T then leftBorder mags rightTs T n else some (n + 1)

/-- `pedometer.cpp` 175-177: the value of `std::max_element`; for an empty range the iterator is the
right border. -/
noncomputable def maxElement (right : Magnitude) : List Magnitude → ℝ
  | [] => right.value
  | a :: l => l.foldl (fun best m => if best < m.value then m.value else best) a.value

/-- `pedometer.cpp` 178-180: the value of `std::min_element`. -/
noncomputable def minElement (right : Magnitude) : List Magnitude → ℝ
  | [] => right.value
  | a :: l => l.foldl (fun best m => if m.value < best then m.value else best) a.value

/-- `pedometer.cpp` 167-185: `calculateStepLength` with the right border given by its index. -/
noncomputable def calculateStepLength (mags : List Magnitude) (T : Int) (right : ℕ) : Option ℝ :=
  match mags[right]? with
  | none => none
  | some r =>
    match leftBorder mags r.ts T right with
    | none => none
    | some left =>
      let range := (mags.drop left).take (right - left)
      some (STEP_LENGTH_CONST * root (root (maxElement r range - minElement r range)))

/-- `pedometer.cpp` 117-125: the time between steps.  `std::accumulate` sums in an `int`, modelled
without overflow; `/=` truncates towards zero. -/
noncomputable def timeBetweenSteps (times : List Int) : ℝ :=
  let nSteps : ℕ := max times.length 1
  let sum : Int := if nSteps ≥ MINIMAL_NUMBER_OF_STEPS then times.foldl (· + ·) 0 else 0
  let averageStepTime : Int := sum.tdiv nSteps
  max (1.0 * (MIN_TIME_BETWEEN_STEPS_MS : ℝ)) (0.6 * (averageStepTime : ℝ))

/-- `pedometer.cpp` 127-156: the loop body for index `i`.  `mFilteredAccMagnitudes[i-1]` with `i = 0`
is out of range. -/
noncomputable def stepBody (between : ℝ) (i : ℕ) (st : PedoState × List Step) :
    Option (PedoState × List Step) :=
  let (s, steps) := st
  if i = 0 then none
  else
    match s.mags[i]?, s.mags[i - 1]? with
    | some curAcc, some prevAcc =>
      let s := if s.isStep = false ∧ prevAcc.value < MINIMAL_THRESHOLD_VALUE ∧
            curAcc.value > MINIMAL_THRESHOLD_VALUE ∧
            curAcc.ts - s.possibleTs > MIN_TIME_BETWEEN_STEPS_MS ∧ between > 0
          then { s with isStep := true, possibleTs := curAcc.ts } else s
      if s.isStep = true then
        match calculateStepLength s.mags UPDATE_TIME_INTERVAL_MS i with
        | none => none
        | some stepLength =>
          let times := if s.possibleTs - s.stepTime < MAX_STEP_TIME
            then s.times ++ [s.possibleTs - s.stepTime] else s.times
          some ({ s with times := times, stepTime := s.possibleTs, isStep := false },
            steps ++ [⟨s.possibleTs, stepLength⟩])
      else some (s, steps)
    | _, _ => none

/-- `pedometer.cpp` 127: the loop over the indices from `i` on, `n` of them. -/
noncomputable def stepLoop (between : ℝ) : ℕ → ℕ → PedoState × List Step → Option (PedoState × List Step)
  | _, 0, st => some st
  | i, n + 1, st => (stepBody between i st).bind (stepLoop between (i + 1) n)

/-- `pedometer.cpp` 161-162: keep the last 50 step times. -/
def trimTimes (times : List Int) : List Int := times.drop (times.length - MAXIMUM_NUMBER_OF_STEPS)

/-- `pedometer.cpp` 111-165: `calculateSteps`. -/
noncomputable def calculateSteps (s : PedoState) : Option (PedoState × List Step) :=
  if s.mags.length ≤ 3 then some (s, [])
  else
    match stepLoop (timeBetweenSteps s.times) s.magSize (s.mags.length - s.magSize) (s, []) with
    | none => none
    | some (s, steps) =>
      match popOld Magnitude.ts (2 * UPDATE_TIME_INTERVAL_MS) s.mags with
      | none => none
      | some mags => some ({ s with mags := mags, times := trimTimes s.times }, steps)

end Verif.Pedo
