import Verif.Floors.Spec

/-!
# Specification vocabulary for C141: the order of the map
-/

namespace Verif.Order

open Verif.Levels Verif.Nav Verif.Floors

/-- No transmitter stands on two floors. -/
def OneFloorEach (ls : List Level) : Prop :=
  ∀ a ∈ ls, ∀ b ∈ ls, ∀ id, (a.transmitter id).isSome → (b.transmitter id).isSome → a = b

/-- In no closed window are two floors heard equally strong. -/
def NoTies (ls : List Level) (ws : List (Int × List RadioMeasurement)) : Prop :=
  ∀ w ∈ ws, ∀ a ∈ ls, ∀ b ∈ ls, onFloor a w.2 ≠ [] → onFloor b w.2 ≠ [] → strength w.2 a = strength w.2 b → a = b

/-- The sensor values, if they are a satellite fix, lie in the box of at most one floor. -/
def FixOnOneFloor (ls : List Level) (v : SensorData) : Prop :=
  v.type = .LOCATION → ∀ a ∈ ls, ∀ b ∈ ls,
    Estim.Box.Covers a.geometry.boundingBox (Geo.gpsToLocal ⟨v.values.x, v.values.y⟩ a.bindingPoint) →
    Estim.Box.Covers b.geometry.boundingBox (Geo.gpsToLocal ⟨v.values.x, v.values.y⟩ b.bindingPoint) → a = b

end Verif.Order
