import Verif.Nan.Spec
import Verif.Nan.BaroModel

/-!
# Specification for C146: a pressure that is not a number

A call of the barometer is the floor the signals vote for and a measurement.
-/

namespace Verif.Nan

/-- The barometer after a sequence of calls. -/
noncomputable def runBaro {α : Type} (A : Arithmetic α) (calls : List (String × Msr α)) : Baro α :=
  calls.foldl (fun b c => (checkLevelChange A b c.1 c.2).2) .init

/-- The floor the barometer answers to one more call. -/
noncomputable def floorAfter {α : Type} (A : Arithmetic α) (calls : List (String × Msr α)) (c : String × Msr α) : String :=
  (checkLevelChange A (runBaro A calls) c.1 c.2).1

/-- The pressures that count: those of all calls but the first. -/
def pressuresOf {α : Type} (calls : List (String × Msr α)) : List α :=
  (calls.drop 1).filterMap (fun c => if c.2.type = .BAROMETER then some c.2.values.x else none)

/-- The last (at most) `n` elements. -/
def lastOf {α : Type} (n : ℕ) (l : List α) : List α := l.drop (l.length - n)

/-- The real barometer as one of this model. -/
def ofBaro (b : LevelEst.Barometer) : Baro (Option ℝ) := ⟨b.newM.map some, b.stored.map some, b.isInitialized, b.lastKnownLevel⟩

/-- A reading of the barometer at a time, and the floor the signals vote for. -/
def reading {α : Type} (A : Arithmetic α) (floor : String) (p : α) (t : Int) : String × Msr α := (floor, ⟨.BAROMETER, ⟨p, A.lit 0, A.lit 0⟩, t⟩)

end Verif.Nan
