import Verif.Nan.Model

/-!
# Specification for C144: readings that are not numbers
-/

namespace Verif.Nan

/-- What every arithmetic of IEEE 754 does with a value that is not a number: the result of an operation on it is not a number, and
a comparison with it does not hold. -/
structure Propagates {α : Type} (A : Arithmetic α) : Prop where
  add : ∀ a b, A.nan a ∨ A.nan b → A.nan (A.add a b)
  sub : ∀ a b, A.nan a ∨ A.nan b → A.nan (A.sub a b)
  mul : ∀ a b, A.nan a ∨ A.nan b → A.nan (A.mul a b)
  div : ∀ a b, A.nan a ∨ A.nan b → A.nan (A.div a b)
  neg : ∀ a, A.nan a → A.nan (A.neg a)
  abs : ∀ a, A.nan a → A.nan (A.abs a)
  sqrt : ∀ a, A.nan a → A.nan (A.sqrt a)
  sin : ∀ a, A.nan a → A.nan (A.sin a)
  cos : ∀ a, A.nan a → A.nan (A.cos a)
  asin : ∀ a, A.nan a → A.nan (A.asin a)
  atan2 : ∀ a b, A.nan a ∨ A.nan b → A.nan (A.atan2 a b)
  log : ∀ a, A.nan a → A.nan (A.log a)
  lt : ∀ a b, A.nan a ∨ A.nan b → ¬ A.lt a b
  le : ∀ a b, A.nan a ∨ A.nan b → ¬ A.le a b
  /-- Where neither loop of `to_minus_Pi_Pi` turns, its result is its argument. -/
  wrap : ∀ a, ¬ A.le (A.lit Real.pi) a → ¬ A.lt a (A.lit (-Real.pi)) → A.wrap a = a

/-- One of the three values is not a number. -/
def Bad {α : Type} (A : Arithmetic α) (v : Vec α) : Prop := A.nan v.x ∨ A.nan v.y ∨ A.nan v.z

/-- The sensors that turn the orientation: the gyroscope, the accelerometer, and the magnetometer as long as the gyroscope has sent
nothing. -/
def Turns (gyroHeard : Bool) : SensorType → Prop
  | .GYROSCOPE => True
  | .ACCELEROMETER => True
  | .MAGNETOMETER => gyroHeard = false
  | _ => False

/-- All three angles are not numbers. -/
def Lost {α : Type} (A : Arithmetic α) (e : Euler α) : Prop := A.nan e.roll ∧ A.nan e.pitch ∧ A.nan e.yaw

/-- Exact numbers and one value that is not a number. -/
noncomputable def exact : Arithmetic (Option ℝ) where
  lit := some
  add a b := match a, b with | some x, some y => some (x + y) | _, _ => none
  sub a b := match a, b with | some x, some y => some (x - y) | _, _ => none
  mul a b := match a, b with | some x, some y => some (x * y) | _, _ => none
  div a b := open Classical in match a, b with | some x, some y => if y = 0 then none else some (x / y) | _, _ => none
  neg a := a.map (-·)
  abs a := a.map (|·|)
  sqrt a := open Classical in a.bind fun x => if x < 0 then none else some (Real.sqrt x)
  sin a := a.map Real.sin
  cos a := a.map Real.cos
  asin a := open Classical in a.bind fun x => if |x| ≤ 1 then some (Real.arcsin x) else none
  atan2 a b := match a, b with | some y, some x => some (Fusion.atan2 y x) | _, _ => none
  copysign a b := open Classical in match a, b with | some x, some y => some (if y < 0 then -|x| else |x|) | _, _ => none
  log a := open Classical in a.bind fun x => if x ≤ 0 then none else some (Real.log x)
  wrap a := a.map Fusion.toMinusPiPi
  lt a b := match a, b with | some x, some y => x < y | _, _ => False
  le a b := match a, b with | some x, some y => x ≤ y | _, _ => False
  nan a := a = none

end Verif.Nan
