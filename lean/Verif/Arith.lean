import Mathlib.Analysis.SpecialFunctions.Log.Basic
import Mathlib.Analysis.SpecialFunctions.Trigonometric.Inverse
import Mathlib.Analysis.SpecialFunctions.Sqrt

/-!
# Partial operations

Division by zero, the root of a negative number, the logarithm of a number that is not positive and the arc sine outside
`[-1, 1]` give no number in the code.  Mathlib gives them the value 0 (or clamps).  So that no theorem rests on that, the
model uses the operations below, whose values outside their domain are unknown constants.
-/

namespace Verif

/-- The value of a division by zero: not known. -/
opaque divByZero : ℝ → ℝ

/-- The value of the root of a negative number: not known. -/
opaque rootOfNegative : ℝ → ℝ

/-- The value of the logarithm of a number that is not positive: not known. -/
opaque logOfNonpositive : ℝ → ℝ

/-- The value of the arc sine outside its domain: not known. -/
opaque asinOutside : ℝ → ℝ

open Classical in
/-- `/` on `double`. -/
noncomputable def divide (x y : ℝ) : ℝ := if y = 0 then divByZero x else x / y

@[inherit_doc] infixl:70 " ÷ " => divide

/-- `std::sqrt`. -/
noncomputable def root (x : ℝ) : ℝ := open Classical in if x < 0 then rootOfNegative x else Real.sqrt x

/-- `std::log`. -/
noncomputable def logarithm (x : ℝ) : ℝ := open Classical in if x ≤ 0 then logOfNonpositive x else Real.log x

/-- `std::asin`. -/
noncomputable def asin (x : ℝ) : ℝ := open Classical in if |x| ≤ 1 then Real.arcsin x else asinOutside x

theorem divide_eq {x y : ℝ} (h : y ≠ 0) : x ÷ y = x / y := if_neg h

theorem divide_pos {x y : ℝ} (h : 0 < y) : x ÷ y = x / y := if_neg h.ne'

theorem root_eq {x : ℝ} (h : 0 ≤ x) : root x = Real.sqrt x := if_neg (not_lt.mpr h)

theorem logarithm_eq {x : ℝ} (h : 0 < x) : logarithm x = Real.log x := if_neg (not_le.mpr h)

theorem asin_eq {x : ℝ} (h : |x| ≤ 1) : asin x = Real.arcsin x := if_pos h

end Verif
