import Verif.Levels.Model
import Verif.Input
import Mathlib.Analysis.SpecialFunctions.Pow.Real

/-!
# Model of `src/trilateration.cpp`
-/

namespace Verif.Trilat

open Verif.Levels

/-- `trilateration.cpp` 33-36, 39-42: the point of a transmitter; `none`: `level.transmitter` throws. -/
def txPoint (l : Level) (id : String) : Option XYZPoint := (l.transmitter id).map Transmitter.point

/-- `trilateration.cpp` 43-46: the distance of two transmitters. -/
noncomputable def delta (p1 p2 : XYZPoint) : ℝ :=
  Real.sqrt ((p2.x - p1.x) * (p2.x - p1.x) + (p2.y - p1.y) * (p2.y - p1.y) + (p2.z - p1.z) * (p2.z - p1.z))

open Classical in
/-- `trilateration.cpp` 37-49: the inner loop, the measurements pushed for `msr1`. -/
noncomputable def pushBad (l : Level) (p1 : XYZPoint) (msr1 : RadioData) : List RadioData → Option (List RadioData)
  | [] => some []
  | msr2 :: rest =>
    match txPoint l msr2.id, pushBad l p1 msr1 rest with
    | some p2, some bad =>
      some (if delta p1 p2 > msr1.distance + msr2.distance then msr2 :: bad else bad)
    | _, _ => none

/-- `trilateration.cpp` 25-51: the outer loop; `all` is `newMsr`, `bad` is `badMsr`. -/
noncomputable def badLoop (l : Level) (all : List RadioData) :
    List RadioData → List RadioData → Option (List RadioData)
  | [], bad => some bad
  | msr1 :: rest, bad =>
    if msr1.id ∈ bad.map RadioData.id then badLoop l all rest bad
    else
      match txPoint l msr1.id with
      | none => none
      | some p1 =>
        match pushBad l p1 msr1 all with
        | none => none
        | some new => badLoop l all rest (bad ++ new)

/-- `trilateration.cpp` 12-64: `getIntersectedMeasurements`; `sort` is `std::sort` by distance. -/
noncomputable def getIntersected (sort : List RadioData → List RadioData) (l : Level) (msr : List RadioData) :
    Option (List RadioData) :=
  let newMsr := sort msr
  (badLoop l newMsr newMsr []).map (fun bad =>
    bad.foldl (fun new m => new.filter (fun e => ¬ m.id = e.id)) newMsr)

/-- One equation of `trilateration.cpp` 92-95: the row of `m` and the entry of `b`. -/
structure Row where
  x : ℝ
  y : ℝ
  z : ℝ
  b : ℝ

/-- `trilateration.cpp` 92-95. -/
noncomputable def row (p1 : XYZPoint) (r1 : ℝ) (p2 : XYZPoint) (r2 : ℝ) : Row :=
  ⟨p2.x - p1.x, p2.y - p1.y, p2.z - p1.z,
    (r1 ^ 2 - r2 ^ 2 + ((p2.x - p1.x) ^ 2 + (p2.y - p1.y) ^ 2 + (p2.z - p1.z) ^ 2)) / 2⟩

open Classical in
/-- `std::pow`: `none` stands for NaN and for the infinite value of a negative power of zero. -/
noncomputable def cPow (b e : ℝ) : Option ℝ :=
  if 0 < b then some (b ^ e)
  else if b = 0 then (if 0 < e then some 0 else if e = 0 then some 1 else none)
  else if h : ∃ n : ℤ, e = n then some (b ^ h.choose) else none

/-- `trilateration.cpp` 107 as written (the parenthesis makes the second `pow` part of the exponent);
`none`: NaN. -/
noncomputable def deltaZ (distance x y : ℝ) (p : XYZPoint) : Option ℝ :=
  match cPow (x - p.x) (2 - (y - p.y) ^ 2) with
  | none => none
  | some v => if distance ^ 2 - v < 0 then none else some (Real.sqrt (distance ^ 2 - v))

/-- What `calculateAltitude` answers. -/
inductive Altitude where
  | none
  | value (v : ℝ)
  | notFinite

/-- `trilateration.cpp` 101-114: `sum1` and `nanFlag`; a zero distance makes `sum1` not finite (outer `none`). -/
noncomputable def altitudeSum (l : Level) (x y : ℝ) : List RadioData → Option ℝ × Bool → Option (Option ℝ × Bool)
  | [], acc => some acc
  | msr :: rest, acc =>
    match txPoint l msr.id with
    | none => none
    | some p =>
      match deltaZ msr.distance x y p with
      | none => altitudeSum l x y rest acc
      | some dz =>
        altitudeSum l x y rest
          (if msr.distance = 0 then none else acc.1.map (fun s => s + (p.z + dz) / msr.distance), false)

/-- `trilateration.cpp` 66-120: `calculateAltitude`; `solve` is the Eigen least squares solver. The result
`none` means that `level.transmitter` throws. -/
noncomputable def calculateAltitude (sort : List RadioData → List RadioData) (solve : List Row → XYZPoint)
    (l : Level) (msr : List RadioData) : Option Altitude :=
  match getIntersected sort l (getLevelRadioMeasurements RadioData.id l msr) with
  | none => none
  | some ms =>
    if ms.length < 4 then some .none
    else
      match ms with
      | [] => some .none
      | m1 :: rest =>
        match txPoint l m1.id, rest.mapM (fun m => (txPoint l m.id).map (fun p => (p, m.distance))) with
        | some p1, some ps =>
          let raw := solve (ps.map (fun p => row p1 m1.distance p.1 p.2))
          match altitudeSum l (raw.x + p1.x) (raw.y + p1.y) (m1 :: rest) (some 0, true) with
          | none => none
          | some (_, true) => some .none
          | some (none, false) => some .notFinite
          | some (some s, false) => some (.value s)
        | _, _ => none

end Verif.Trilat
