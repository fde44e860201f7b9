import Verif.Trilat.Model

/-!
# Specification vocabulary for trilateration
-/

namespace Verif.Trilat

open Verif.Levels

/-- Euclidean distance in space. -/
noncomputable def dist3 (a b : XYZPoint) : ℝ :=
  Real.sqrt ((a.x - b.x) ^ 2 + (a.y - b.y) ^ 2 + (a.z - b.z) ^ 2)

/-- The balls of two measurements have a common point: their centres are known and not farther apart than
the sum of the measured distances. -/
def Meet (l : Level) (m1 m2 : RadioData) : Prop :=
  ∃ t1 t2, l.transmitter m1.id = some t1 ∧ l.transmitter m2.id = some t2 ∧
    dist3 t1.point t2.point ≤ m1.distance + m2.distance

/-- The squared residual of a candidate solution. -/
noncomputable def residual (rows : List Row) (v : XYZPoint) : ℝ :=
  (rows.map (fun r => (r.x * v.x + r.y * v.y + r.z * v.z - r.b) ^ 2)).sum

/-- Contract of `bdcSvd(...).solve`: a least squares solution. -/
def LeastSquares (solve : List Row → XYZPoint) : Prop :=
  ∀ rows v, residual rows (solve rows) ≤ residual rows v

end Verif.Trilat
