import Verif.Fp.Instance
import Verif.Geo.Model

/-!
# The geographic conversions with rounding

`src/point.cpp` once more, operation by operation, with a rounding after each operation (see `Verif.Fp.Model`).  The cosine of the
C library is a parameter; what is assumed of it is in `Cosine`.  `M_PI` and the quotients of constants, which the compiler may
compute, are rounded too.
-/

namespace Verif.Fp

open Verif.Geo

/-- A cosine of the C library: at most one, and exact to `2⁻⁵²` (the result of a library with errors below one unit in the last
place is). -/
structure Cosine where
  cos : ℝ → ℝ
  near : ∀ x, |cos x - Real.cos x| ≤ 2 * u
  le : ∀ x, |cos x| ≤ 1

variable (R : Rounding) (K : Cosine)

/-- `src/point.cpp` 17-27. -/
noncomputable def normalizeF (lon : ℝ) : ℝ :=
  if lon > 180 then R.rnd (lon - 360)
  else if lon ≤ -180 then R.rnd (lon + 360)
  else lon

/-- `src/point.cpp` 29-32. -/
noncomputable def degToRadF (deg : ℝ) : ℝ := R.rnd (R.rnd (deg * R.rnd Real.pi) / 180)

/-- `src/point.cpp` 38-39 and 49. -/
noncomputable def circumferenceF (bind : GeoPoint) : ℝ := R.rnd (40075160 * K.cos (degToRadF R bind.latitude))

/-- `src/point.cpp` 34-45. -/
noncomputable def gpsToLocalF (p bind : GeoPoint) : XYPoint where
  x := R.rnd (normalizeF R (R.rnd (p.longitude - bind.longitude)) * R.rnd (circumferenceF R K bind / 360))
  y := R.rnd (R.rnd (p.latitude - bind.latitude) * R.rnd (40008000 / 360))

/-- `src/point.cpp` 47-53. -/
noncomputable def localToGpsF (q : XYPoint) (bind : GeoPoint) : GeoPoint where
  latitude := R.rnd (R.rnd (q.y * R.rnd (360 / 40008000)) + bind.latitude)
  longitude := normalizeF R (R.rnd (R.rnd (R.rnd (q.x * 360) ÷ circumferenceF R K bind) + bind.longitude))

/-- The exact cosine is one. -/
noncomputable def exactCosine : Cosine where
  cos := Real.cos
  near := fun x => by
    have : (0 : ℝ) ≤ u := by unfold u; positivity
    simpa using this
  le := Real.abs_cos_le_one

/-- The exact cosine, rounded to the nearest `double`, is one too. -/
noncomputable def nearestCosine : Cosine where
  cos := fun x => nearest.rnd (Real.cos x)
  near := fun x => by
    have h1 := nearest.near (Real.cos x)
    have h2 := Real.abs_cos_le_one x
    have hu : (0 : ℝ) < u := by unfold u; positivity
    have ht : tiny ≤ u := by
      unfold tiny u
      exact zpow_le_zpow_right₀ (by norm_num) (by norm_num)
    have := mul_le_mul_of_nonneg_left h2 hu.le
    linarith
  le := fun x => by
    have hone : nearest.rnd 1 = 1 := by
      refine nearest_fix 1 (2 ^ 52) ?_
      have : ulpExp 1 = -52 := by
        unfold ulpExp
        rw [if_neg one_ne_zero, abs_one, Int.log_one_right]
        norm_num
      rw [this]
      norm_num [zpow_neg]
    have hneg : nearest.rnd (-1) = -1 := by
      refine nearest_fix (-1) (-2 ^ 52) ?_
      have : ulpExp (-1) = -52 := by
        unfold ulpExp
        rw [if_neg (by norm_num), abs_neg, abs_one, Int.log_one_right]
        norm_num
      rw [this]
      norm_num [zpow_neg]
    rw [abs_le]
    constructor
    · rw [← hneg]; exact nearest.mono (Real.neg_one_le_cos x)
    · calc nearest.rnd (Real.cos x) ≤ nearest.rnd 1 := nearest.mono (Real.cos_le_one x)
        _ = 1 := hone

end Verif.Fp
