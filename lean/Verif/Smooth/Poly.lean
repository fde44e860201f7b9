import Mathlib.Analysis.Real.Sqrt
import Mathlib.Data.List.Range

/-!
# Model of `src/position_postprocessor/polynomial_fit.{h,cpp}`

A `std::vector<double>` of known length is a function on its indices.  A value that is not finite
(NaN or infinity, produced by a division by zero) is `none`; undefined behaviour is `none` of the
outer `Option` of `removeOldPoints` and `addSequencePoint`.
-/

namespace Verif.Smooth

/-! ## `solveLinearSystem` -/

/-- `polynomial_fit.cpp` 155-160: `E = [A, b]`.  `E[r*(n+1) + c]` is `E r c`: the loops only use columns
`c ≤ n`, for which the flat index determines `r` and `c`. `A` keeps its flat index. -/
def augmented (A b : ℕ → ℝ) (n : ℕ) : ℕ → ℕ → ℝ :=
  fun r c => if c = n then b r else A (r * n + c)

/-- `polynomial_fit.cpp` 166-176: one rotation of the rows `k` and `j`. Column `i` of the loop 171-176
reads and writes column `i` only, so that the loop is a pointwise map. `none`: the norm is zero, so
that `cosphi`, `sinphi` and then the whole solution are NaN. -/
noncomputable def rotate (n : ℕ) (E : ℕ → ℕ → ℝ) (k j : ℕ) : Option (ℕ → ℕ → ℝ) :=
  let norm := Real.sqrt (E k k * E k k + E j k * E j k)
  let cosphi := E k k / norm
  let sinphi := E j k / norm
  if norm = 0 then none
  else some (fun r i =>
    if k ≤ i ∧ i < n + 1 then
      if r = j then cosphi * E j i - sinphi * E k i
      else if r = k then sinphi * E j i + cosphi * E k i
      else E r i
    else E r i)

/-- `polynomial_fit.cpp` 164-177: the inner loop over `j` for one `k`. -/
noncomputable def sweep (n : ℕ) (E : ℕ → ℕ → ℝ) (k : ℕ) : Option (ℕ → ℕ → ℝ) :=
  (List.range' (k + 1) (n - (k + 1))).foldlM (fun E j => rotate n E k j) E

/-- `polynomial_fit.cpp` 163-177: "Forward Gaussian". -/
noncomputable def forward (n : ℕ) (E : ℕ → ℕ → ℝ) : Option (ℕ → ℕ → ℝ) :=
  (List.range n).foldlM (fun E k => sweep n E k) E

/-- `polynomial_fit.cpp` 181-184: one step of the back substitution; `none`: division by zero. -/
noncomputable def backStep (n : ℕ) (E : ℕ → ℕ → ℝ) (x : ℕ → ℝ) (k : ℕ) : Option (ℕ → ℝ) :=
  let v := (List.range' (k + 1) (n - (k + 1))).foldl (fun s i => s - E k i * x i) (E k n)
  if E k k = 0 then none else some (Function.update x k (v / E k k))

/-- `polynomial_fit.cpp` 179-185: "Back-Gaussing"; the old contents of `x` are overwritten before they
are read. -/
noncomputable def backward (n : ℕ) (E : ℕ → ℕ → ℝ) : Option (ℕ → ℝ) :=
  (List.range n).reverse.foldlM (fun x k => backStep n E x k) (fun _ => 0)

/-- `polynomial_fit.cpp` 146-187: `solveLinearSystem`. -/
noncomputable def solveLinearSystem (A b : ℕ → ℝ) (n : ℕ) : Option (ℕ → ℝ) :=
  (forward n (augmented A b n)).bind (backward n)

/-! ## `PolynomialFit` -/

/-- `polynomial_fit.h` 32-35: the constants of the object. -/
structure FitParams where
  power : ℕ
  timeInterval : ℝ
  timeShift : ℝ
  newWeight : ℝ

/-- `polynomial_fit.h` 36-40: the state of the object; `lastOutput`, `coeff` are `none` when they are
not finite. -/
structure FitState where
  xs : List ℝ
  ys : List ℝ
  coeff : Option (ℕ → ℝ)
  lastOutput : Option ℝ

/-- `polynomial_fit.cpp` 12-20: the constructor. -/
noncomputable def fitInit : FitState := ⟨[], [], some (fun _ => 0), some 0⟩

/-- `polynomial_fit.cpp` 37-44: `removeOldPoints`; `last` is `mX.back()`, which the loop does not change
as long as the deque is not empty; `none`: `front` or `pop_front` of an empty deque. -/
noncomputable def removeOldPoints (interval last : ℝ) : List ℝ → List ℝ → Option (List ℝ × List ℝ)
  | [], _ => none
  | x :: xs, ys =>
    if last - x > interval then
      match ys with
      | [] => none
      | _ :: ys' => removeOldPoints interval last xs ys'
    else some (x :: xs, ys)

/-- `polynomial_fit.cpp` 116-124: `sub[i]`. -/
noncomputable def powerSum (xs : List ℝ) (i : ℕ) : ℝ := xs.foldl (fun s x => s + x ^ i) 0

/-- `polynomial_fit.cpp` 131-139: `b[i]`. -/
noncomputable def momentSum (xs ys : List ℝ) (i : ℕ) : ℝ :=
  (xs.zip ys).foldl (fun s p => s + p.1 ^ i * p.2) 0

/-- `polynomial_fit.cpp` 108-144: `getLeastSquaresCoeff`. The flat index `m = i + j*(mPower + 1)` of `A` is
decoded into `i` and `j`. -/
noncomputable def leastSquaresCoeff (power : ℕ) (xs ys : List ℝ) : Option (ℕ → ℝ) :=
  solveLinearSystem (fun m => powerSum xs (m % (power + 1) + m / (power + 1))) (momentSum xs ys) (power + 1)

/-- `polynomial_fit.cpp` 22-35: `addSequencePoint`. -/
noncomputable def addSequencePoint (P : FitParams) (s : FitState) (x y : ℝ) : Option FitState :=
  let coeff := if s.ys.isEmpty then some (fun _ => (0 : ℝ)) else s.coeff
  if s.ys.isEmpty ∨ s.ys.getLast? ≠ some y then
    match removeOldPoints P.timeInterval x (s.xs ++ [x]) (s.ys ++ [y]) with
    | none => none
    | some (xs, ys) =>
      some { s with
        xs := xs, ys := ys
        coeff := if ys.length > P.power then leastSquaresCoeff P.power xs ys else coeff }
  else some { s with coeff := coeff }

/-- `polynomial_fit.cpp` 46-50: `clear`. -/
def fitClear (s : FitState) : FitState := { s with xs := [], ys := [] }

/-- `polynomial_fit.cpp` 75-94: `getLagrangeSolution`; `none`: two equal times divide by zero. -/
noncomputable def lagrangeSolution (shift : ℝ) (xs ys : List ℝ) (curTime : ℝ) : Option ℝ :=
  let time := curTime - shift
  let pwr := ys.length
  (List.range pwr).foldlM (fun out i =>
    ((List.range pwr).foldlM (fun mult j =>
        if i ≠ j then
          if xs.getD i 0 - xs.getD j 0 = 0 then none
          else some (mult * ((time - xs.getD j 0) / (xs.getD i 0 - xs.getD j 0)))
        else some mult) (1 : ℝ)).map (fun mult => out + ys.getD i 0 * mult)) 0

/-- `polynomial_fit.cpp` 96-106: `getLeastSquaresSolution`. -/
noncomputable def leastSquaresSolution (P : FitParams) (c : ℕ → ℝ) (curTime : ℝ) : ℝ :=
  (List.range (P.power + 1)).foldl (fun out i => out + c i * (curTime - P.timeShift) ^ i) 0

/-- `polynomial_fit.cpp` 52-73: `predict`. -/
noncomputable def predict (P : FitParams) (s : FitState) (x : ℝ) : Option ℝ × FitState :=
  let size := s.ys.length
  if size = 0 then (some (-1), s)
  else if size = 1 ∨ size < P.power + 1 then
    let out := lagrangeSolution P.timeShift s.xs s.ys x
    (out, { s with lastOutput := out })
  else
    let out := match s.coeff, s.lastOutput with
      | some c, some l => some (leastSquaresSolution P c x * P.newWeight + l * (1 - P.newWeight))
      | _, _ => none
    (out, { s with lastOutput := out })

end Verif.Smooth
