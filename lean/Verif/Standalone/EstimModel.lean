import Verif.StdMap
import Verif.Arith
import Mathlib.Analysis.SpecialFunctions.Exp
import Mathlib.Analysis.Real.Sqrt

/-!
# Model of `standalone_algorithms/position_estimation/src/{nearest_transmitter_estimator,position_smoother}.cpp`

Paths below are relative to `standalone_algorithms/position_estimation`. Numbers are finite reals, time stamps
unbounded integers.
-/

namespace Verif.Standalone

/-- `include/navigation_structures.h` 23-30: `struct Position`. -/
structure SPos where
  x : ℝ
  y : ℝ
  precision : ℝ
  isEmpty : Bool
  ts : Int

/-- `include/navigation_structures.h` 23-30: the default values. -/
noncomputable def SPos.default : SPos := ⟨0, 0, 0, true, -1⟩

/-- `include/navigation_structures.h` 34: `enum class Type`. -/
inductive MsrType where
  | WIFI | BEACON
  deriving DecidableEq

/-- `include/navigation_structures.h` 32-44: `struct RadioMeasurement`. -/
structure Msr where
  type : MsrType
  ts : Int
  id : String
  rssi : ℝ
  power : ℝ
  frequency : ℝ
  distance : ℝ
  stddev : ℝ

/-- `include/transmitter.h` 9-19: `struct Transmitter`; the type is not used. -/
structure Tx where
  id : String
  x : ℝ
  y : ℝ

/-! ## `position_smoother.cpp` -/

/-- `include/position_smoother.h` 15-20: the members; `mAlpha` does not change, `mTsMs` is not used. -/
structure Smoother where
  wasCalled : Bool
  speedX : ℝ
  speedY : ℝ
  alpha : ℝ
  position : SPos

/-- `src/position_smoother.cpp` 6-17: the constructor. -/
noncomputable def Smoother.init (smoothing : ℝ) : Smoother :=
  let s := min 1 (max 0 smoothing)
  ⟨false, 0, 0, 1 / 10 * s + 9 / 10 * (1 - s), SPos.default⟩

open Classical in
/-- `src/position_smoother.cpp` 19-56: `smoothPosition`. -/
noncomputable def smoothPosition (s : Smoother) (pos : SPos) : SPos × Smoother :=
  if pos.ts > s.position.ts then
    let t : ℝ := ((pos.ts - s.position.ts : Int) : ℝ) / 1000
    let a := s.alpha
    let b := a * a ÷ (2 - a)
    let xp := s.position.x + s.speedX * t
    let vxp := s.speedX + (b ÷ t) * (pos.x - xp)
    let xs := xp + a * (pos.x - xp)
    let yp := s.position.y + s.speedY * t
    let vyp := s.speedY + (b ÷ t) * (pos.y - yp)
    let ys := yp + a * (pos.y - yp)
    let timeIsTooLong := t > 10
    if s.wasCalled = false ∨ timeIsTooLong then
      (pos, ⟨true, 0, 0, a, pos⟩)
    else
      let pos' := { pos with x := xs, y := ys }
      (pos', ⟨s.wasCalled, vxp, vyp, a, pos'⟩)
  else (s.position, s)

/-! ## `nearest_transmitter_estimator.cpp` -/

/-- `src/nearest_transmitter_estimator.cpp` 8-9. -/
noncomputable def txA : ℝ := -82
noncomputable def txB : ℝ := 3

/-- `include/nearest_transmitter_estimator.h` 22-23: the members. -/
structure NearestTx where
  smoother : Smoother
  transmitters : List (String × Tx)

/-- `src/nearest_transmitter_estimator.cpp` 11-16: the constructor. -/
noncomputable def NearestTx.init (txs : List Tx) : NearestTx :=
  ⟨Smoother.init (9 / 10), txs.foldl (fun m t => StdMap.set m t.id t) []⟩

/-- `src/nearest_transmitter_estimator.cpp` 18-26: `getRegisteredTransmittersMeasurements`. -/
def getRegistered (e : NearestTx) (msr : List Msr) : List Msr :=
  msr.filter (fun m => (StdMap.find? e.transmitters m.id).isSome)

open Classical in
/-- `std::max_element` over the RSSI of a non-empty range (36-37). -/
noncomputable def maxRssi (m : Msr) (ms : List Msr) : Msr :=
  ms.foldl (fun best m => if best.rssi < m.rssi then m else best) m

/-- `src/nearest_transmitter_estimator.cpp` 28-53: `calculatePosition`; the measurements are non-empty in the
second case, so `back` is defined. -/
noncomputable def calculatePosition (e : NearestTx) (input : List Msr) : SPos × NearestTx :=
  match getRegistered e input with
  | [] => (SPos.default, e)
  | m :: ms =>
    let nearest := maxRssi m ms
    match StdMap.find? e.transmitters nearest.id with
    | none => (SPos.default, e)
    | some t =>
      let position : SPos := ⟨t.x, t.y, Real.sqrt (Real.exp ((txA - nearest.rssi) / txB)) + 1, false,
        ((m :: ms).getLast (by simp)).ts⟩
      let r := smoothPosition e.smoother position
      (r.1, { e with smoother := r.2 })

end Verif.Standalone
