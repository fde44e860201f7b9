import Verif.Smooth.Poly
import Mathlib.Algebra.BigOperators.Group.Finset.Basic

/-! # Specification of the polynomial fit -/

namespace Verif.Smooth

/-- `x` solves the linear system with the matrix `A` (row `i`, column `j` at `i*n + j`). -/
def IsSolution (A b : ℕ → ℝ) (n : ℕ) (x : ℕ → ℝ) : Prop :=
  ∀ i < n, ∑ j ∈ Finset.range n, A (i * n + j) * x j = b i

/-- The polynomial with the coefficients `d 0, …, d p`. -/
noncomputable def evalPoly (p : ℕ) (d : ℕ → ℝ) (t : ℝ) : ℝ := ∑ i ∈ Finset.range (p + 1), d i * t ^ i

/-- Sum of the squared residuals of a polynomial over samples `(time, value)`. -/
noncomputable def sse (p : ℕ) (samples : List (ℝ × ℝ)) (d : ℕ → ℝ) : ℝ :=
  (samples.map (fun q => (evalPoly p d q.1 - q.2) ^ 2)).sum

/-- One call of the public functions of `PolynomialFit`. -/
inductive FitOp where
  | add (x y : ℝ)
  | clear
  | predict (x : ℝ)

/-- Effect of one call on the object; `none` is undefined behaviour. -/
noncomputable def fitStep (P : FitParams) (s : FitState) : FitOp → Option FitState
  | .add x y => addSequencePoint P s x y
  | .clear => some (fitClear s)
  | .predict x => some (predict P s x).2

/-- The object after a history of calls. -/
noncomputable def fitRun (P : FitParams) (ops : List FitOp) : Option FitState :=
  ops.foldlM (fitStep P) fitInit

open Classical in
/-- The samples given since the last `clear`, without those that repeat the value before them. -/
noncomputable def accepted (ops : List FitOp) : List (ℝ × ℝ) :=
  ops.foldl (fun acc op => match op with
    | .add x y => if acc.getLast?.map Prod.snd = some y then acc else acc ++ [(x, y)]
    | .clear => []
    | .predict _ => acc) []

end Verif.Smooth
