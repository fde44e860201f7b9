import Verif.Nan.Model
import Verif.Estim.Model

/-!
# Model of the satellite estimator over numbers that need not be numbers

`src/point.cpp` and `src/position_estimator/position_estimator_outdoor.cpp` once more, over any arithmetic that has values that are
not numbers (NaN).
-/

namespace Verif.Nan

/-- `point.h`: a geographic point. -/
structure Geo (α : Type) where
  latitude : α
  longitude : α

/-- `point.h`: a local point. -/
structure Pt (α : Type) where
  x : α
  y : α

/-- What the estimator reads of a floor. -/
structure Floor (α : Type) where
  id : String
  binding : Geo α
  minCorner : Pt α
  maxCorner : Pt α

/-- `position_estimator_outdoor.h` 70-80: what the estimator reads of the settings. `coarse` is `deviation > mMaxGpsDeviation` and
`expired` says of an age in milliseconds that it is beyond the valid time. -/
structure FixConfig (α : Type) where
  window : ℕ
  delta : α
  minDeviation : α
  coarse : α → Prop
  expired : Int → Prop
  outside : Bool
  filter : Bool
  minSats : ℕ

/-- `position.h`: a place; only what the estimator sets. -/
structure Place (α : Type) where
  x : α
  y : α
  level : String
  deviation : α
  ts : Int
  isEmpty : Bool

/-- `position_estimator_outdoor.h` 81-84: the mutable members. -/
structure FixState (α : Type) where
  last : Place α
  buf : List (Pt α)

section
variable {α : Type} (A : Arithmetic α)

/-- `position.h` 20-28: the default constructor. -/
def noPlace : Place α := ⟨A.lit 0, A.lit 0, "", A.lit 0, 0, true⟩

open Classical in
/-- `point.cpp` 17-27: `normalizeLongitude`. -/
noncomputable def normalizeLongitude (lon : α) : α :=
  if A.lt (A.lit 180) lon then A.sub lon (A.lit 360)
  else if A.le lon (A.lit (-180)) then A.add lon (A.lit 360)
  else lon

/-- `point.cpp` 38-39, 29-32: the length of the parallel. -/
noncomputable def parallel (bind : Geo α) : α :=
  A.mul (A.lit Verif.Geo.equatorCircumference) (A.cos (A.div (A.mul bind.latitude (A.lit Real.pi)) (A.lit 180)))

/-- `point.cpp` 34-45: `gpsToLocal`. -/
noncomputable def gpsToLocal (p bind : Geo α) : Pt α where
  x := A.mul (normalizeLongitude A (A.sub p.longitude bind.longitude)) (A.div (parallel A bind) (A.lit 360))
  y := A.mul (A.sub p.latitude bind.latitude) (A.lit (Verif.Geo.poleCircumference / 360))

/-- `point.cpp` 47-53: `localToGps`. -/
noncomputable def localToGps (q : Pt α) (bind : Geo α) : Geo α where
  latitude := A.add (A.mul q.y (A.lit (360 / Verif.Geo.poleCircumference))) bind.latitude
  longitude := normalizeLongitude A (A.add (A.div (A.mul q.x (A.lit 360)) (parallel A bind)) bind.longitude)

/-- `position_estimator_outdoor.cpp` 16-38: the test for a full buffer. -/
def Accepts (window : ℕ) (delta : α) (buf : List (Pt α)) (p : Pt α) : Prop :=
  let meanX := A.div (buf.foldl (fun s q => A.add s q.x) (A.lit 0)) (A.lit window)
  let meanY := A.div (buf.foldl (fun s q => A.add s q.y) (A.lit 0)) (A.lit window)
  let accX := buf.foldl (fun s q => A.add s (A.mul (A.sub q.x meanX) (A.sub q.x meanX))) (A.lit 0)
  let accY := buf.foldl (fun s q => A.add s (A.mul (A.sub q.y meanY) (A.sub q.y meanY))) (A.lit 0)
  let devX := A.add (A.mul (A.lit 3) (A.sqrt (A.div accX (A.lit window)))) delta
  let devY := A.add (A.mul (A.lit 3) (A.sqrt (A.div accY (A.lit window)))) delta
  A.le (A.abs (A.sub meanX p.x)) devX ∧ A.le (A.abs (A.sub meanY p.y)) devY

open Classical in
/-- `position_estimator_outdoor.cpp` 12-44: `SigmaFilter::add`; `none`: undefined behaviour (line 40). -/
noncomputable def sigmaAdd (window : ℕ) (delta : α) (buf : List (Pt α)) (p : Pt α) : Option (Bool × List (Pt α)) :=
  if buf.length = window then
    match buf with
    | [] => none
    | q :: rest => some (decide (Accepts A window delta (q :: rest) p), rest ++ [p])
  else some (false, buf ++ [p])

/-- `boost::geometry::covered_by(Point, Box)`. -/
def Covers (l : Floor α) (p : Pt α) : Prop :=
  A.le l.minCorner.x p.x ∧ A.le p.x l.maxCorner.x ∧ A.le l.minCorner.y p.y ∧ A.le p.y l.maxCorner.y

/-- `position_estimator_outdoor.cpp` 64-79: a fix. -/
structure Fix (α : Type) where
  latitude : α
  longitude : α
  deviation : α
  ts : Int

open Classical in
/-- `position_estimator_outdoor.cpp` 64-79: `extractGpsPosition`; `none` is the empty one. `std::max(a, b)` is `a < b ? b : a`. -/
noncomputable def extractFix (c : FixConfig α) (ts : Int) (m : Msr α) : Option (Fix α) :=
  if m.type = .LOCATION then
    some ⟨m.values.x, m.values.y, if A.lt m.values.z c.minDeviation then c.minDeviation else m.values.z, ts⟩
  else none

open Classical in
/-- `position_estimator_outdoor.cpp` 114-146: the loop over the levels. -/
noncomputable def fixLevels (c : FixConfig α) (st : FixState α) (g : Fix α) (sats : Int) :
    List (Floor α) → Option (Place α × FixState α)
  | [] => some (noPlace A, st)
  | l :: ls =>
    let point := gpsToLocal A ⟨g.latitude, g.longitude⟩ l.binding
    if (¬ A.nan point.x ∧ ¬ A.nan point.y ∧ Covers A l point) ∨ c.outside = true then
      let outPos : Place α := ⟨point.x, point.y, l.id, g.deviation, g.ts, false⟩
      let check : Option (Bool × List (Pt α)) :=
        if outPos.ts ≠ st.last.ts then
          if c.filter then sigmaAdd A c.window c.delta st.buf point
          else some (true, st.buf)
        else some (true, st.buf)
      match check with
      | none => none
      | some (isValid, buf) =>
        if !isValid || (sats ≠ 0 && decide (sats < (c.minSats : Int))) then some (noPlace A, { st with buf := buf })
        else some (outPos, ⟨outPos, buf⟩)
    else fixLevels c st g sats ls

open Classical in
/-- `position_estimator_outdoor.cpp` 90-147: `calculatePosition`. -/
noncomputable def fixPosition (c : FixConfig α) (levels : List (Floor α)) (st : FixState α) (ts : Int) (sensor : Msr α)
    (nmea : NmeaMeasurement) (flagIndoorPos : Bool) : Option (Place α × FixState α) :=
  let gps := extractFix A c ts sensor
  let sats := Estim.extractNumberOfSatellites nmea
  let tooCoarse : Prop := match gps with
    | none => False
    | some g => c.coarse g.deviation
  let st1 : FixState α := if flagIndoorPos = true ∨ tooCoarse then { st with buf := [] } else st
  match gps with
  | none => if c.expired (ts - st1.last.ts) then some (noPlace A, st1) else some (st1.last, st1)
  | some g => fixLevels A c st1 g sats levels

end

end Verif.Nan
