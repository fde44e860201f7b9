import Verif.Nan.Spec
import Verif.Nan.FixModel

/-!
# Specification for C145: satellite fixes that are not numbers
-/

namespace Verif.Nan

/-- The latitude or the longitude is not a number. -/
def BadFix {α : Type} (A : Arithmetic α) (m : Msr α) : Prop := m.type = .LOCATION ∧ (A.nan m.values.x ∨ A.nan m.values.y)

/-- One coordinate is not a number. -/
def BadPoint {α : Type} (A : Arithmetic α) (p : Pt α) : Prop := A.nan p.x ∨ A.nan p.y

/-- The receiver announces enough satellites, or none at all. -/
def Announced (minSats : ℕ) (nmea : NmeaMeasurement) : Prop :=
  nmea.data.sentenceNumber = 1 → nmea.data.satellitesNumber ≠ 0 → (minSats : Int) ≤ nmea.data.satellitesNumber

/-- One call of the estimator. -/
structure Call (α : Type) where
  ts : Int
  sensor : Msr α
  nmea : NmeaMeasurement
  indoor : Bool

/-- A sequence of calls: the places told and the state afterwards; `none`: undefined behaviour. -/
noncomputable def fixRun {α : Type} (A : Arithmetic α) (c : FixConfig α) (levels : List (Floor α)) :
    FixState α → List (Call α) → Option (List (Place α) × FixState α)
  | st, [] => some ([], st)
  | st, k :: ks =>
    match fixPosition A c levels st k.ts k.sensor k.nmea k.indoor with
    | none => none
    | some (out, st') => (fixRun A c levels st' ks).map fun r => (out :: r.1, r.2)

/-- How many calls bring a fix. -/
def fixes {α : Type} (ks : List (Call α)) : ℕ := (ks.filter fun k => k.sensor.type = .LOCATION).length

/-- A real place as one of this model. -/
def ofPlace (p : Position) : Place (Option ℝ) := ⟨some p.x, some p.y, p.levelId, some p.deviationM, p.ts, p.isEmpty⟩

/-- A real point as one of this model. -/
def ofPoint (p : Verif.Geo.XYPoint) : Pt (Option ℝ) := ⟨some p.x, some p.y⟩

/-- A real geographic point as one of this model. -/
def ofGeo (p : Verif.Geo.GeoPoint) : Geo (Option ℝ) := ⟨some p.latitude, some p.longitude⟩

/-- A floor as one of this model. -/
def ofLevel (l : Levels.Level) : Floor (Option ℝ) :=
  ⟨l.id, ofGeo l.bindingPoint, ofPoint l.geometry.boundingBox.minCorner, ofPoint l.geometry.boundingBox.maxCorner⟩

/-- The settings as those of this model. -/
noncomputable def ofSettings (s : CommonSettings) : FixConfig (Option ℝ) where
  window := s.sigmaFilterWindow
  delta := some s.sigmaFilterDelta
  minDeviation := some s.minGpsDeviation
  coarse d := ∃ x : ℝ, d = some x ∧ s.maxGpsDeviation < (x : EReal)
  expired age := ((age : ℝ) / 1000) > s.gpsValidTimeWindowSec
  outside := s.useGpsOutsideMap
  filter := s.useGpsSigmaFilter
  minSats := s.minNumSats

/-- The members as those of this model. -/
def ofMembers (st : Estim.OutdoorState) : FixState (Option ℝ) := ⟨ofPlace st.last, st.buf.map ofPoint⟩

end Verif.Nan
