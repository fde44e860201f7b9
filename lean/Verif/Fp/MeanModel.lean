import Verif.Fp.CmModel
import Verif.Radio.Model

/-!
# The averages of a window in floating point
-/

namespace Verif.Fp

open Verif.Levels Verif.Radio

variable (R : Rounding)

/-- `measurement_preprocessor.cpp` 283-303: average the range of one transmitter, with a rounding after each addition and after the
division. The count is converted to `double` without rounding. -/
noncomputable def averageRangeF (first : RadioMeasurement) (range : List RadioMeasurement) : RadioData :=
  let nSignals : ℝ := range.length
  let sumRssi := range.foldl (fun sum m => R.rnd (sum + m.data.rssi)) 0
  let sumDistances := range.foldl (fun sum m => R.rnd (sum + m.data.distance)) 0
  { first.data with rssi := R.rnd (sumRssi ÷ nSignals), distance := R.rnd (sumDistances ÷ nSignals) }

/-- `measurement_preprocessor.cpp` 274-305: the grouping loop. -/
noncomputable def averageLoopF : List RadioMeasurement → List RadioData
  | [] => []
  | x :: xs =>
    averageRangeF R x (x :: xs.takeWhile (fun m => !decide (x.data.id < m.data.id))) ::
      averageLoopF (xs.dropWhile (fun m => !decide (x.data.id < m.data.id)))
termination_by l => l.length
decreasing_by
  simp only [List.length_cons]
  exact Nat.lt_succ_of_le (List.dropWhile_suffix _).length_le

/-- `measurement_preprocessor.cpp` 266-305: sort by the id, then average. -/
noncomputable def averagesF (s : Sorts) (w : List RadioMeasurement) : List RadioData := averageLoopF R (s.byId w)

end Verif.Fp
