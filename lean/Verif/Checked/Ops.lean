import Verif.Arith
import Verif.Radio.Model

/-!
# Arithmetic with checks

Division by zero, the root of a negative number, the logarithm of a number that is not positive, the arc sine outside
`[-1, 1]`, a `long long` result outside 64 bits and the conversion of a `double` beyond `long long` have no result here: `none`.
-/

namespace Verif.Checked

/-- The values of `long long`. -/
def InLong (n : Int) : Prop := -2 ^ 63 ≤ n ∧ n < 2 ^ 63

/-- A time stamp in milliseconds that is far from the limits of 64 bits (146 million years). -/
def Safe (t : Int) : Prop := -2 ^ 62 ≤ t ∧ t < 2 ^ 62

/-- A time in seconds that is far from the limits of 64 bits when it is converted to milliseconds. -/
def Moderate (x : ℝ) : Prop := |x| ≤ 10 ^ 15

/-- The values of `int`. -/
def InInt (n : Int) : Prop := -2 ^ 31 ≤ n ∧ n < 2 ^ 31

open Classical in
/-- `/` on `double`. -/
noncomputable def div (x y : ℝ) : Option ℝ := if y = 0 then none else some (x / y)

open Classical in
/-- `std::sqrt`. -/
noncomputable def sqrt (x : ℝ) : Option ℝ := if x < 0 then none else some (Real.sqrt x)

open Classical in
/-- `std::log`. -/
noncomputable def log (x : ℝ) : Option ℝ := if x ≤ 0 then none else some (Real.log x)

open Classical in
/-- `std::asin`. -/
noncomputable def asin (x : ℝ) : Option ℝ := if |x| ≤ 1 then some (Real.arcsin x) else none

open Classical in
/-- `-` on `long long`. -/
noncomputable def sub (a b : Int) : Option Int := if InLong (a - b) then some (a - b) else none

open Classical in
/-- `*` on `long long`. -/
noncomputable def mul (a b : Int) : Option Int := if InLong (a * b) then some (a * b) else none

open Classical in
/-- A `long long` stored in an `int`. -/
noncomputable def narrow (n : Int) : Option Int := if InInt n then some n else none

open Classical in
/-- `(long long)x` of a `double`. -/
noncomputable def toLong (x : ℝ) : Option Int :=
  if InLong (Radio.truncToInt x) then some (Radio.truncToInt x) else none

/-! ## Sequences of operations that may also throw or be undefined in the unchecked model -/

/-- Go on with the value, if there is one, of an operation with an optional result. -/
def bind2 {α β : Type} (x : Option (Option α)) (f : α → Option (Option β)) : Option (Option β) :=
  match x with
  | none => none
  | some none => some none
  | some (some a) => f a

/-- A loop whose body has an optional result. -/
def fold2 {α β : Type} (f : α → β → Option (Option α)) : α → List β → Option (Option α)
  | a, [] => some (some a)
  | a, b :: l => bind2 (f a b) (fun a => fold2 f a l)

/-- A loop that computes an optional value for each element. -/
def map2 {α β : Type} (f : α → Option (Option β)) : List α → Option (Option (List β))
  | [] => some (some [])
  | a :: l => bind2 (f a) (fun b => bind2 (map2 f l) (fun bs => some (some (b :: bs))))

end Verif.Checked
