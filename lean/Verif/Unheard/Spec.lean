import Verif.East.Spec

/-!
# Specification for C152: transmitters that are not heard
-/

namespace Verif.Unheard

open Verif.Levels Verif.Nav
open Verif.Geo (GeoPoint)

/-- Two floors that are the same apart from transmitters whose ids are not in `K`: those may be missing, added, moved or changed. -/
structure SameFloor (K : String → Prop) (l l' : Level) : Prop where
  id : l'.id = l.id
  binding : l'.bindingPoint = l.bindingPoint
  radiomap : l'.radiomap = l.radiomap
  geometry : l'.geometry = l.geometry
  graph : l'.graph = l.graph
  tx : ∀ i, K i → l'.transmitter i = l.transmitter i

/-- Two maps of such floors. -/
structure SameMap (K : String → Prop) (c c' : LevelCollector) : Prop where
  indices : c'.indices = c.indices
  floors : List.Forall₂ (SameFloor K) c.levels c'.levels

/-- Two floor plans that are the same apart from transmitters whose ids are not in `K`. -/
def SamePlan (K : String → Prop) (g g' : GeoLevel) : Prop :=
  g' = { g with transmitters := g'.transmitters } ∧
    g'.transmitters.filter (fun t => open Classical in decide (K t.id)) = g.transmitters.filter (fun t => open Classical in decide (K t.id))

/-- The transmitter `i` sends one of the messages. -/
def Sends (calls : List (List Measurement)) (i : String) : Prop := ∃ b ∈ calls, ∃ m ∈ b, ∃ d, m.data = .radio d ∧ d.id = i

end Verif.Unheard
