import Verif.Knn.Model

/-!
# Specification vocabulary for the KNN weights (C28-C32, C74, C75)
-/

namespace Verif.Knn

/-- A fingerprint of a reference point that matches a measurement. -/
structure Match where
  m : RadioData
  f : Fingerprint

/-- The matches of a reference point: pairs of a measurement and a fingerprint of that point for the
same transmitter. -/
def matched (fps : List Fingerprint) (msr : List RadioData) (rp : String) : List Match :=
  msr.flatMap (fun m => (fps.filter (fun f => f.tx == m.id && f.rp == rp)).map (fun f => ⟨m, f⟩))

/-- All pairs (later, earlier) of elements of a list. -/
def laterEarlier {α : Type} : List α → List (α × α)
  | [] => []
  | a :: l => l.map (fun b => (b, a)) ++ laterEarlier l

/-- Trust in a measurement: `10^(-0.06 (P - rssi))` where `P` is the power, −10 if not positive. -/
noncomputable def trustSpec (m : RadioData) : ℝ :=
  (10 : ℝ) ^ (-(3 / 50 : ℝ) * ((if m.power < 1 / 100000 then -10 else m.power) - m.rssi))

/-- The share of a transmitter: the trust in its last measurement over the sum of all. -/
noncomputable def share (msr : List RadioData) (id : String) : ℝ :=
  match msr.reverse.find? (fun m => m.id == id) with
  | some m => trustSpec m / (msr.map trustSpec).sum
  | none => 0

/-- The weight of a reference point with `n` matches, penalty sum `S` and share sum `N`. -/
noncomputable def combine (n : ℕ) (S N : ℝ) : ℝ :=
  n / Real.sqrt (if N > 1 / 100000000 then S / N else S)

/-- The weight in difference mode. -/
noncomputable def diffWeight (msr : List RadioData) (M : List Match) : ℝ :=
  let apW := fun (p : Match × Match) => share msr p.1.m.id * share msr p.2.m.id
  let penalty := fun (p : Match × Match) =>
    max (|(p.1.f.stat.mean - p.2.f.stat.mean) - (p.1.m.rssi - p.2.m.rssi)| * apW p) (1 / 1000000)
  combine M.length ((laterEarlier M).map penalty).sum ((laterEarlier M).map apW).sum

/-- The weight in absolute mode (the database holds positive values). -/
noncomputable def absWeight (msr : List RadioData) (M : List Match) : ℝ :=
  let apW := fun (p : Match) => share msr p.m.id
  let penalty := fun (p : Match) => max (|p.f.stat.mean + p.m.rssi| * apW p) (1 / 1000000)
  combine M.length (M.map penalty).sum (M.map apW).sum

end Verif.Knn
