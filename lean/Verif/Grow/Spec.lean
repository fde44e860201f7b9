import Verif.Grow.Model
import Verif.Nav.Spec

/-!
# Specification: sessions in which floors are added
-/

namespace Verif.Grow

open Verif.Levels
open Verif.Knn (Result)
open Verif.Nav

/-- The floors that a session adds. -/
def added (ks : List Call) : List Level :=
  ks.filterMap (fun k => match k with
    | .addLevel l => some l
    | .navigate _ => none)

/-- How many outputs a call returns. -/
def answers : Call → ℕ
  | .addLevel _ => 0
  | .navigate batch => (records batch).length

/-- The client looks for the floor by the transmitters heard. -/
def ByTransmitters (cs : CommonSettings) : Prop := cs.useRadiomap = false ∧ cs.useAlgorithm ≠ .KNN

/-- An output as C63 says: with a place on a floor of the map, or without one and with one of three statuses. -/
def Proper (ls : List Level) (o : Output) : Prop :=
  (o.status = .OK ∧ Complete ls o) ∨
    ((o.status = .NAVIGATION_ERROR ∨ o.status = .NO_SOLUTION ∨ o.status = .NO_LEVEL) ∧ Blank o)

/-- The settings `old` with path loss parameters 0 for the floors `new`. -/
def withoutParameters (old : List (String × Estim.LevelSettings)) (new : List Level) : List (String × Estim.LevelSettings) :=
  new.foldl (fun m l => StdMap.set m l.id ⟨0, 0⟩) old

/-- A caller who catches the exceptions calls `navigate` for all the batches, and every call throws. -/
inductive AllThrow (c : Cfg) : State → List (List Measurement) → Prop
  | nil (s : State) : AllThrow c s []
  | cons {s s' : State} {m : Measurement} {ms : List Measurement} {bs : List (List Measurement)}
      (h : navigate c s (m :: ms) = .throws) (hl : leftBehind c s m = some s') (hs : AllThrow c s' bs) :
      AllThrow c s ((m :: ms) :: bs)

end Verif.Grow
