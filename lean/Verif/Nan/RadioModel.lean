import Verif.Nan.Model
import Verif.Radio.Model

/-!
# Model of the radio preprocessor over numbers that need not be numbers

`src/measurements/measurement_preprocessor.cpp` once more, over any arithmetic that has values that are not numbers (NaN). Of a radio
message the members the preprocessor uses are kept. What it asks the maps is given: `valid` says whether the transmitter is one to use
(lines 173-175) and `pathloss` is the model of a known one (lines 142-148). The two sorts by id and time are parameters, whose keys are
no floating-point numbers; the sort by strength is in `closest`.
-/

namespace Verif.Nan.Rd

/-- `navigation_input.h` 21-46: a radio message. -/
structure Entry (α : Type) where
  type : RadioType
  id : String
  rssi : α
  distance : α

/-- `navigation_input.h` 48-55: with its time. -/
structure Heard (α : Type) where
  data : Entry α
  ts : Int

/-- `measurement_preprocessor.h` 76-85: what does not change. -/
structure Config (α : Type) where
  valid : String → Bool
  supported : RadioType → Bool
  rssiMode : Bool
  cutOff : α
  rttOffset : α
  pathloss : String → Option (α × α)
  buffer : Radio.BufferCfg
  byId : List (Heard α) → List (Heard α)
  byTs : List (Heard α) → List (Heard α)

/-- `measurement_preprocessor.h` 41-45: the buffer. -/
structure Buffer (α : Type) where
  lastExtractionTs : Int
  currentTs : Int
  lastStepTs : Int
  measurements : List (Heard α)

/-- `measurement_preprocessor.cpp` 232-234: the initial buffer. -/
def init {α : Type} : Buffer α := ⟨0, 0, 0, []⟩

variable {α : Type} (A : Arithmetic α)

/-- `measurement_preprocessor.cpp` 198-201: `isRssiValid`. -/
def RssiValid (c : Config α) (rssi : α) : Prop := A.lt rssi (A.lit 0) ∧ A.lt c.cutOff rssi

/-- `measurement_preprocessor.cpp` 170-187: `getValidSignalEntry` returns the entry. -/
def Takes (c : Config α) (e : Entry α) : Prop :=
  c.valid e.id = true ∧ ¬ (c.rssiMode = false ∧ e.type ≠ .WIFI_RTT) ∧ ¬ (c.rssiMode = true ∧ ¬ RssiValid A c e.rssi) ∧
    c.supported e.type = true

/-- `measurement_preprocessor.cpp` 237-250: `addMeasurement`. -/
noncomputable def add (c : Config α) (b : Buffer α) (m : Heard α) : Buffer α :=
  let b1 := if b.currentTs = 0 then { b with currentTs := m.ts, lastExtractionTs := m.ts } else b
  { b1 with
    measurements := b1.measurements ++ [{ m with data := { m.data with rssi := A.add m.data.rssi (A.lit c.buffer.bias) } }]
    currentTs := m.ts }

open Classical in
/-- `measurement_preprocessor.cpp` 92-110: a radio message arrives. -/
noncomputable def hear (c : Config α) (b : Buffer α) (m : Heard α) : Buffer α := if Takes A c m.data then add A c b m else b

/-- `measurement_preprocessor.cpp` 283-303: the mean of the messages of one transmitter. -/
noncomputable def average (first : Heard α) (range : List (Heard α)) : Entry α :=
  let n := A.lit (range.length : ℝ)
  { first.data with
    rssi := A.div (range.foldl (fun s m => A.add s m.data.rssi) (A.lit 0)) n
    distance := A.div (range.foldl (fun s m => A.add s m.data.distance) (A.lit 0)) n }

/-- `measurement_preprocessor.cpp` 274-305: the loop over the transmitters. -/
noncomputable def averages : List (Heard α) → List (Entry α)
  | [] => []
  | x :: xs =>
    average A x (x :: xs.takeWhile (fun m => !decide (x.data.id < m.data.id))) ::
      averages (xs.dropWhile (fun m => !decide (x.data.id < m.data.id)))
termination_by l => l.length
decreasing_by
  simp only [List.length_cons]
  exact Nat.lt_succ_of_le (List.dropWhile_suffix _).length_le

/-- `measurement_preprocessor.cpp` 252-338: `extractMeasurements`. -/
noncomputable def extract (c : Config α) (b0 : Buffer α) (lastStepTs : Int) : List (Entry α) × Buffer α :=
  let b1 := if lastStepTs > 0 then { b0 with lastStepTs := lastStepTs } else b0
  if b1.currentTs - b1.lastExtractionTs < c.buffer.shiftMs then ([], b1)
  else
    let b2 := { b1 with lastExtractionTs := b1.currentTs, measurements := c.byId b1.measurements }
    let out := averages A b2.measurements
    if c.buffer.useStops && decide (b2.lastStepTs > 0) && decide (b2.currentTs - b2.lastStepTs > c.buffer.stopMs) then (out, b2)
    else if c.buffer.keepMs = 0 then (out, { b2 with measurements := [] })
    else
      (out, { b2 with
        measurements := (c.byTs b2.measurements).dropWhile (fun m => !decide (m.ts ≥ b2.currentTs - c.buffer.keepMs)) })

/-- `measurement_preprocessor.cpp` 129-133: the comparison the sort by strength is called with. -/
def Weaker (a b : Entry α) : Prop := A.lt a.rssi b.rssi

/-- `measurement_preprocessor.cpp` 139-155: the distance of one entry; `exp` is `std::exp`. -/
noncomputable def withDistance (exp : α → α) (c : Config α) (e : Entry α) : Entry α :=
  if e.type ≠ .WIFI_RTT then
    match c.pathloss e.id with
    | none => e
    | some (a, b) => { e with distance := exp (A.div (A.sub a e.rssi) b) }
  else { e with distance := A.sub e.distance c.rttOffset }

end Verif.Nan.Rd
