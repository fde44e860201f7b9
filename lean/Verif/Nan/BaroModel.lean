import Verif.Nan.Model
import Verif.LevelEst.Model

/-!
# Model of the barometer over numbers that need not be numbers

`src/level_estimator/barometer.cpp` once more, over any arithmetic that has values that are not numbers (NaN).
-/

namespace Verif.Nan

/-- `barometer.h` 32-36: `class Barometer`. -/
structure Baro (α : Type) where
  newM : List α
  stored : List α
  isInitialized : Bool
  lastKnownLevel : String

/-- `barometer.h` 23: the constructor. -/
def Baro.init {α : Type} : Baro α := ⟨[], [], false, ""⟩

section
variable {α : Type} (A : Arithmetic α)

/-- `barometer.cpp` 27-36: `calcMean`. -/
def calcMean (l : List α) : α := if l.isEmpty then A.lit 0 else A.div (l.foldl A.add (A.lit 0)) (A.lit (l.length : ℕ))

/-- `barometer.cpp` 57-80: `updateBuffers`; `SIZE_OF_CHUNK` is 100. -/
def updateBuffers (b : Baro α) (m : Msr α) : Baro α :=
  if m.type = .BAROMETER then
    let b1 := if b.stored.length > 100 then { b with stored := b.stored.drop 1 } else b
    let b2 := if b1.newM.length > 100 then
        { b1 with stored := b1.stored ++ b1.newM.take 1, newM := b1.newM.drop 1 } else b1
    { b2 with newM := b2.newM ++ [m.values.x] }
  else b

open Classical in
/-- `barometer.cpp` 83-113: `updateLevel`. -/
noncomputable def updateLevel (b : Baro α) (levelId : String) : Baro α :=
  if b.newM.length > 100 ∧ b.stored.length ≥ 100 then
    if b.lastKnownLevel ≠ levelId then
      let curMean := calcMean A b.newM
      let lastMean := calcMean A b.stored
      if A.le curMean (A.lit LevelEst.doubleEpsilon) ∨ A.le lastMean (A.lit LevelEst.doubleEpsilon) then b
      else
        let p2Pa := A.mul (A.lit 100) curMean
        let p1Pa := A.mul (A.lit 100) lastMean
        let deltaHeightM := A.mul (A.lit LevelEst.pascalToMeters) (A.log (A.div p2Pa p1Pa))
        if A.lt (A.lit 2) (A.abs deltaHeightM) then { b with lastKnownLevel := levelId } else b
    else b
  else { b with lastKnownLevel := levelId }

/-- `barometer.cpp` 42-55: `checkLevelChange`. -/
noncomputable def checkLevelChange (b : Baro α) (levelId : String) (m : Msr α) : String × Baro α :=
  if !b.isInitialized then (levelId, { b with isInitialized := true })
  else
    let b1 := updateLevel A (updateBuffers b m) levelId
    (b1.lastKnownLevel, b1)

end

end Verif.Nan
