import Mathlib.Analysis.SpecialFunctions.Trigonometric.Basic
import Verif.Arith

/-!
# Model of `src/point.cpp` and `include/navigine/navigation-core/point.h`

`double` is modelled by `ℝ`.
-/

namespace Verif.Geo

/-- `include/navigine/navigation-core/point.h` 13-27: `struct GeoPoint`. -/
@[ext] structure GeoPoint where
  latitude : ℝ
  longitude : ℝ

/-- `include/navigine/navigation-core/point.h` 48-62: `struct XYPoint`. -/
@[ext] structure XYPoint where
  x : ℝ
  y : ℝ

/-- `src/point.cpp` 13: `EQUATOR_CIRCUMFERENCE_METERS`. -/
def equatorCircumference : ℝ := 40075160

/-- `src/point.cpp` 14: `POLE_CIRCUMFERENCE_METERS`. -/
def poleCircumference : ℝ := 40008000

/-- `src/point.cpp` 17-27: one correction by a full turn, upper bound tested first. -/
noncomputable def normalizeLongitude (lon : ℝ) : ℝ :=
  if lon > 180 then lon - 360
  else if lon ≤ -180 then lon + 360
  else lon

/-- `src/point.cpp` 29-32. -/
noncomputable def degToRad (deg : ℝ) : ℝ := deg * Real.pi / 180

/-- `src/point.cpp` 38-39 and 49: the length of the parallel through the binding point. -/
noncomputable def latitudeCircumference (bind : GeoPoint) : ℝ :=
  equatorCircumference * Real.cos (degToRad bind.latitude)

/-- `src/point.cpp` 34-45. -/
noncomputable def gpsToLocal (p bind : GeoPoint) : XYPoint where
  x := normalizeLongitude (p.longitude - bind.longitude) * (latitudeCircumference bind / 360)
  y := (p.latitude - bind.latitude) * (poleCircumference / 360)

/-- `src/point.cpp` 47-53.  A binding point on a pole divides by zero in the code (infinite or NaN
longitude). -/
noncomputable def localToGps (q : XYPoint) (bind : GeoPoint) : GeoPoint where
  latitude := q.y * (360 / poleCircumference) + bind.latitude
  longitude := normalizeLongitude ((q.x * 360) ÷ latitudeCircumference bind + bind.longitude)

end Verif.Geo
