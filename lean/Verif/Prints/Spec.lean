import Verif.Floors.Spec
import Verif.Nav.KnnSpec

/-!
# Specification vocabulary for C119: a building with several floors and fingerprints

Everything is said in terms of the measurements given to the client and of the map.
-/

namespace Verif.Prints

open Verif.Levels Verif.Nav
open Verif.Floors (idsOf votes closedWindows)

open Classical in
/-- The transmitters heard in a window that have a fingerprint on the floor. -/
noncomputable def knownIds (lv : Level) (win : List RadioMeasurement) : List String :=
  (idsOf win).filter (fun id => OnMap lv id)

/-- The mean levels of the fingerprints of a transmitter on a floor. -/
def printsOf (lv : Level) (tx : String) : List ℝ :=
  lv.radiomap.referencePoints.flatMap fun rp => (rp.fingerprints.filter (fun p => p.1 == tx)).map (fun p => p.2.mean)

/-- How well the mean strength of a transmitter in a window agrees with its fingerprints on a floor: the mean of
`1 / (difference of the levels + 0.1)`. -/
noncomputable def agreement (lv : Level) (win : List RadioMeasurement) (tx : String) : ℝ :=
  Radio.mean ((printsOf lv tx).map fun a => 1 / (|(|meanRssi win tx| - |a|)| + 1 / 10))

/-- The score of a floor in a window: number of known transmitters times the sum of their agreements. -/
noncomputable def score (win : List RadioMeasurement) (lv : Level) : ℝ :=
  ((knownIds lv win).map (agreement lv win)).sum * (knownIds lv win).length

/-- The floor of a window: the one with the greatest score, among equals the first of the map; none if no transmitter is known on
any floor. -/
def WindowFloor (ls : List Level) (win : List RadioMeasurement) : Option Level → Prop
  | some lv => ∃ before after, ls = before ++ lv :: after ∧ knownIds lv win ≠ [] ∧
      (∀ k ∈ before, score win k < score win lv) ∧ (∀ k ∈ after, score win k ≤ score win lv)
  | none => ∀ l ∈ ls, knownIds l win = []

/-- The floor in use after the windows `ws`: the floors of the windows that have one are voted on. -/
def InUse (ls : List Level) (ws : List (Int × List RadioMeasurement)) (lv : Level) : Prop :=
  lv ∈ ls ∧ ∃ ds, List.Forall₂ (fun w d => WindowFloor ls w.2 d) ws ds ∧
    (votes (ds.filterMap (Option.map Level.id))).used = some lv.id

/-- If triangles are to be used, the floor has more than three reference points, and no floor up to it has more than three
reference points without a triangle. -/
def MeshedOn (s : Triang.Sorts) (ls : List Level) (cs : CommonSettings) (lv : Level) : Prop :=
  cs.useTriangles = true → 3 < lv.radiomap.referencePoints.length ∧ ∃ before after, ls = before ++ lv :: after ∧
    ∀ l ∈ before ++ [lv], 3 < l.radiomap.referencePoints.length → Knn.levelTriangles s l ≠ []

/-- The window `w` after the windows `ws` gives a place on the floor `lv`: this is the floor in use, enough of its transmitters are
heard, and it is meshed. -/
def Fixes (s : Triang.Sorts) (ls : List Level) (cs : CommonSettings) (ws : List (Int × List RadioMeasurement))
    (w : Int × List RadioMeasurement) (lv : Level) : Prop :=
  InUse ls (ws ++ [w]) lv ∧ Enough lv cs w.2 ∧ MeshedOn s ls cs lv

/-- The last window of `ws` that gives a place is `win`, closed at `t0`, with a place on `lv`. -/
def LastFix (s : Triang.Sorts) (ls : List Level) (cs : CommonSettings) (ws : List (Int × List RadioMeasurement)) (lv : Level)
    (t0 : Int) (win : List RadioMeasurement) : Prop :=
  ∃ before after, ws = before ++ (t0, win) :: after ∧ Fixes s ls cs before (t0, win) lv ∧
    ∀ a w b, after = a ++ w :: b → ∀ k, ¬ Fixes s ls cs (before ++ (t0, win) :: a) w k

/-- No window of `ws` gives a place. -/
def NoFix (s : Triang.Sorts) (ls : List Level) (cs : CommonSettings) (ws : List (Int × List RadioMeasurement)) : Prop :=
  ∀ a w b, ws = a ++ w :: b → ∀ k, ¬ Fixes s ls cs a w k

/-- The measurement `m` after the history `ms` closes a window with enough transmitters of the floor. -/
def ClosesEnough (ls : List Level) (cs : CommonSettings) (lv : Level) (ms : List Measurement) (m : Measurement) : Prop :=
  ∃ t win, ClosesWith ls cs ms m t win ∧ Enough lv cs win

end Verif.Prints
