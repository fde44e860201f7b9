import Verif.Nav.Spec

/-!
# Specification for C116: the same messages at other times
-/

namespace Verif.Shift

open Verif Verif.Levels Verif.Nav

/-- The same message, `δ` ms later (earlier if `δ` is negative). -/
def later {D : Type} (δ : Int) (m : Stamped D) : Stamped D := ⟨m.data, m.ts + δ⟩

/-- The same calls with all messages `δ` ms later. -/
def allLater (δ : Int) (batches : List (List Measurement)) : List (List Measurement) := batches.map (List.map (later δ))

/-- A time stamp that is far enough from the start of the clock: two seconds, and with the detection of stops in use
more than the time between updates of a standing position. -/
structure LateEnough (cs : CommonSettings) (t : Int) : Prop where
  two : 2000 ≤ t
  stops : cs.useStops = true → 1000 * cs.stopUpdateTime < (t : ℝ)

/-- An algorithm that sorts by comparisons of transmitter ids, or of time stamps, does not notice that all time stamps
are moved: among elements that are equal for the comparison it makes the same choice. -/
structure TimeBlind (s : Radio.Sorts) : Prop where
  byId : ∀ δ l, s.byId (l.map (later δ)) = (s.byId l).map (later δ)
  byTs : ∀ δ l, s.byTs (l.map (later δ)) = (s.byTs l).map (later δ)

end Verif.Shift
