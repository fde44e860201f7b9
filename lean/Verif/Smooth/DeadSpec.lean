import Verif.Smooth.Model

/-!
# Specification for C151: two places of one time in the least squares smoother
-/

namespace Verif.Smooth

/-- The places the least squares smoother tells without barriers; `none`: undefined behaviour. -/
noncomputable def lsTold (P : FitParams) : LsState → List Position → Option (List Position)
  | _, [] => some []
  | s, p :: ps =>
    match lsSmooth P false (fun _ _ => True) s p with
    | none => none
    | some r => (lsTold P r.2 ps).map (r.1 :: ·)

/-- From the one place to the next the user moves in both coordinates, in no more than `interval` seconds. -/
def Moves (interval : ℝ) (p q : Position) : Prop :=
  p.x ≠ q.x ∧ p.y ≠ q.y ∧ ((q.ts - p.ts : Int) : ℝ) / 1000 ≤ interval

/-- Two places of one time that differ in both coordinates. -/
def Twins (p q : Position) : Prop := p.ts = q.ts ∧ p.x ≠ q.x ∧ p.y ≠ q.y

end Verif.Smooth
