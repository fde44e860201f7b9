import Verif.East.Spec

/-!
# Specification for C153: the names of the floors are labels
-/

namespace Verif.Label

open Verif.Levels Verif.Nav

/-- New names for the floors: different names stay different, and no name is given to "no floor". -/
structure Renaming (f : String → String) : Prop where
  injective : Function.Injective f
  empty : f "" = ""

/-- The floor with its new name. -/
def relabel (f : String → String) (l : Level) : Level := { l with id := f l.id }

/-- The floor plan with its new name. -/
def relabelPlan (f : String → String) (g : GeoLevel) : GeoLevel := { g with id := f g.id }

/-- What one table says about a name, the other says about the new name. -/
def SameEntries {ν : Type} (f : String → String) (m m' : List (String × ν)) : Prop := ∀ k, StdMap.find? m' (f k) = StdMap.find? m k

/-- The map with the new names: the floors are the same and in the same order, and are found under their new names. -/
structure SameMap (f : String → String) (c c' : LevelCollector) : Prop where
  levels : c'.levels = c.levels.map (relabel f)
  indices : SameEntries f c.indices c'.indices

/-- The answer with the new name of the floor. -/
def relabelOut (f : String → String) (o : Output × DebugState) : Output × DebugState := ({ o.1 with posLevel := f o.1.posLevel }, o.2)

/-- What the client of the renamed map has to do, given what the client of the map does: give the same answers with the new names, or
fail in the same way. -/
def Answers (f : String → String) (r r' : Knn.Result (State × List (Output × DebugState))) : Prop :=
  (∀ s outs, r = .ok (s, outs) → ∃ s', r' = .ok (s', outs.map (relabelOut f))) ∧ (r = .throws → r' = .throws) ∧
    (r = .undefined → r' = .undefined)

end Verif.Label
