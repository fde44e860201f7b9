import Verif.East.Spec
import Mathlib.Order.Monotone.Defs

/-!
# Specification for C155: the names of the transmitters are labels
-/

namespace Verif.Tag

open Verif.Levels Verif.Nav
open Verif.Geo (XYPoint GeoPoint)

/-- A signal of the renamed transmitter. -/
def tag (f : String → String) (d : RadioData) : RadioData := { d with id := f d.id }

/-- A signal with its time. -/
def tagSignal (f : String → String) (m : RadioMeasurement) : RadioMeasurement := ⟨tag f m.data, m.ts⟩

/-- A message. -/
def tagMessage (f : String → String) (m : Measurement) : Measurement :=
  ⟨match m.data with
    | .radio d => .radio (tag f d)
    | .sensor d => .sensor d
    | .nmea d => .nmea d, m.ts⟩

/-- A transmitter of the map. -/
def tagTransmitter {P : Type} (f : String → String) (t : Transmitter P) : Transmitter P := { t with id := f t.id }

/-- A reference point with the new names in its fingerprints. -/
def tagPoint {P : Type} (f : String → String) (rp : ReferencePoint P) : ReferencePoint P :=
  { rp with fingerprints := rp.fingerprints.map (fun p => (f p.1, p.2)) }

/-- A floor plan. -/
def tagPlan (f : String → String) (g : GeoLevel) : GeoLevel :=
  { g with
    transmitters := g.transmitters.map (tagTransmitter f)
    referencePoints := g.referencePoints.map (tagPoint f) }

/-- A floor. -/
def tagLevel (f : String → String) (l : Level) : Level :=
  { l with
    transmitters := l.transmitters.map (fun p => (f p.1, tagTransmitter f p.2))
    radiomap := ⟨l.radiomap.referencePoints.map (tagPoint f), l.radiomap.index⟩ }

/-- A map. -/
def tagMap (f : String → String) (c : LevelCollector) : LevelCollector := ⟨c.levels.map (tagLevel f), c.indices⟩

/-- The sorting functions do nothing but compare: new names in the same order do not change where an element goes. -/
structure Compares (f : String → String) (env : Env) : Prop where
  byId : ∀ l, env.radioSorts.byId (l.map (tagSignal f)) = (env.radioSorts.byId l).map (tagSignal f)
  byTs : ∀ l, env.radioSorts.byTs (l.map (tagSignal f)) = (env.radioSorts.byTs l).map (tagSignal f)
  byRssi : ∀ l, env.radioSorts.byRssi (l.map (tag f)) = (env.radioSorts.byRssi l).map (tag f)
  distance : ∀ l, env.distanceSort (l.map (tag f)) = (env.distanceSort l).map (tag f)

/-- The same answers, or the same failure. -/
def SameAnswers (r r' : Knn.Result (State × List (Output × DebugState))) : Prop :=
  (∀ s outs, r = .ok (s, outs) → ∃ s', r' = .ok (s', outs)) ∧ (r = .throws → r' = .throws) ∧ (r = .undefined → r' = .undefined)

end Verif.Tag
