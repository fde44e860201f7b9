import Verif.Geo.Model
import Mathlib.Tactic.Linarith
import Mathlib.Tactic.FieldSimp
import Mathlib.Tactic.Positivity

/-!
# C01, C02, C03: geographic and local coordinates
-/

namespace Verif.Geo

/-- A longitude in the documented range `(-180, 180]`. -/
def ValidLon (lon : ℝ) : Prop := -180 < lon ∧ lon ≤ 180

/-- Two longitudes denote the same meridian: they differ by whole turns. -/
def SameMeridian (a b : ℝ) : Prop := ∃ k : ℤ, a = b + 360 * k

/-- **C01.** Geographic to local and back is the identity. -/
theorem C01_geo_local_geo (p bind : GeoPoint) (hp : ValidLon p.longitude)
    (hb : ValidLon bind.longitude) (hc : Real.cos (degToRad bind.latitude) ≠ 0) :
    localToGps (gpsToLocal p bind) bind = p := by
  have hL : latitudeCircumference bind ≠ 0 := by
    unfold latitudeCircumference equatorCircumference
    exact mul_ne_zero (by norm_num) hc
  obtain ⟨hp1, hp2⟩ := hp
  obtain ⟨hb1, hb2⟩ := hb
  ext
  · simp only [localToGps, gpsToLocal, poleCircumference]; ring
  · simp only [localToGps, gpsToLocal, divide_eq hL]
    have : normalizeLongitude (p.longitude - bind.longitude) * (latitudeCircumference bind / 360) * 360
        / latitudeCircumference bind = normalizeLongitude (p.longitude - bind.longitude) := by
      field_simp
    rw [this]
    unfold normalizeLongitude
    split_ifs <;> linarith

/-- The round trip hypotheses are met away from the origin, across the date line. -/
example : ∃ p bind : GeoPoint, ValidLon p.longitude ∧ ValidLon bind.longitude ∧
    Real.cos (degToRad bind.latitude) ≠ 0 ∧ bind.latitude = 60 ∧
    p.longitude = -179 ∧ bind.longitude = 180 := by
  refine ⟨⟨61, -179⟩, ⟨60, 180⟩, by constructor <;> norm_num, by constructor <;> norm_num, ?_, rfl, rfl, rfl⟩
  have : degToRad 60 = Real.pi / 3 := by unfold degToRad; ring
  simp only [this, Real.cos_pi_div_three]; norm_num

/-- **C02.** Local to geographic and back is the identity for points less than half a parallel away
from the binding point. -/
theorem C02_local_geo_local (q : XYPoint) (bind : GeoPoint) (hb : ValidLon bind.longitude)
    (hc : 0 < Real.cos (bind.latitude * Real.pi / 180))
    (h1 : -(40075160 * Real.cos (bind.latitude * Real.pi / 180)) / 2 < q.x)
    (h2 : q.x ≤ 40075160 * Real.cos (bind.latitude * Real.pi / 180) / 2) :
    gpsToLocal (localToGps q bind) bind = q := by
  change 0 < Real.cos (degToRad bind.latitude) at hc
  have hL : 0 < latitudeCircumference bind := by
    unfold latitudeCircumference equatorCircumference
    positivity
  obtain ⟨hb1, hb2⟩ := hb
  change -(latitudeCircumference bind) / 2 < q.x at h1
  change q.x ≤ latitudeCircumference bind / 2 at h2
  have e1 : -180 < q.x * 360 / latitudeCircumference bind := by
    rw [lt_div_iff₀ hL]; linarith
  have e2 : q.x * 360 / latitudeCircumference bind ≤ 180 := by
    rw [div_le_iff₀ hL]; linarith
  have key : normalizeLongitude
      (normalizeLongitude (q.x * 360 / latitudeCircumference bind + bind.longitude) - bind.longitude)
      = q.x * 360 / latitudeCircumference bind := by
    unfold normalizeLongitude
    split_ifs <;> linarith
  ext
  · simp only [localToGps, gpsToLocal, divide_pos hL]
    rw [key]; field_simp
  · simp only [localToGps, gpsToLocal, poleCircumference]; ring

example : ∃ (q : XYPoint) (bind : GeoPoint), ValidLon bind.longitude ∧
    0 < Real.cos (degToRad bind.latitude) ∧
    -(equatorCircumference * Real.cos (degToRad bind.latitude)) / 2 < q.x ∧
    q.x ≤ equatorCircumference * Real.cos (degToRad bind.latitude) / 2 ∧ q.x = 1000 ∧
    bind.latitude = 60 := by
  have : degToRad 60 = Real.pi / 3 := by unfold degToRad; ring
  refine ⟨⟨1000, -5⟩, ⟨60, 180⟩, by constructor <;> norm_num, ?_, ?_, ?_, rfl, rfl⟩ <;>
    simp only [this, Real.cos_pi_div_three, equatorCircumference] <;> norm_num

/-- Outside the half parallel the round trip really fails: the bound of `C02` cannot be dropped. -/
theorem C02_bound_is_needed (bind : GeoPoint) (hb : ValidLon bind.longitude)
    (hc : 0 < Real.cos (degToRad bind.latitude)) (q : XYPoint)
    (h : equatorCircumference * Real.cos (degToRad bind.latitude) / 2 < q.x) :
    gpsToLocal (localToGps q bind) bind ≠ q := by
  have hL : 0 < latitudeCircumference bind := by
    unfold latitudeCircumference equatorCircumference
    positivity
  obtain ⟨hb1, hb2⟩ := hb
  change latitudeCircumference bind / 2 < q.x at h
  have e2 : 180 < q.x * 360 / latitudeCircumference bind := by
    rw [lt_div_iff₀ hL]; linarith
  intro hq
  have hx := congrArg XYPoint.x hq
  simp only [localToGps, gpsToLocal, divide_pos hL] at hx
  have hx' : normalizeLongitude
      (normalizeLongitude (q.x * 360 / latitudeCircumference bind + bind.longitude) - bind.longitude)
      = q.x * 360 / latitudeCircumference bind := by
    rw [eq_div_iff hL.ne']
    have := congrArg (· * 360) hx
    linarith
  unfold normalizeLongitude at hx'
  split_ifs at hx' <;> linarith

/-- **C03.** The result is always on the same meridian; it is in the documented range exactly for
longitudes at most one and a half turns away from zero. -/
theorem C03_normalize (lon : ℝ) :
    SameMeridian (normalizeLongitude lon) lon ∧
    (ValidLon (normalizeLongitude lon) ↔ -540 < lon ∧ lon ≤ 540) := by
  unfold normalizeLongitude ValidLon SameMeridian
  split_ifs with h h'
  · exact ⟨⟨-1, by push_cast; ring⟩, ⟨fun ⟨_, _⟩ => ⟨by linarith, by linarith⟩, fun ⟨_, _⟩ => ⟨by linarith, by linarith⟩⟩⟩
  · exact ⟨⟨1, by push_cast; ring⟩, ⟨fun ⟨_, _⟩ => ⟨by linarith, by linarith⟩, fun ⟨_, _⟩ => ⟨by linarith, by linarith⟩⟩⟩
  · exact ⟨⟨0, by push_cast; ring⟩, ⟨fun ⟨_, _⟩ => ⟨by linarith, by linarith⟩, fun ⟨_, _⟩ => ⟨by linarith, by linarith⟩⟩⟩

example : (-540 : ℝ) < 359 ∧ (359 : ℝ) ≤ 540 ∧ normalizeLongitude 359 = -1 := by
  refine ⟨by norm_num, by norm_num, ?_⟩
  unfold normalizeLongitude; norm_num

/-- **C03**, what fails: one correction is not enough, *every* longitude outside `(-540, 540]` is
left outside the documented range. -/
theorem C03_single_step_fails (lon : ℝ) (h : lon ≤ -540 ∨ 540 < lon) :
    ¬ ValidLon (normalizeLongitude lon) := by
  unfold normalizeLongitude ValidLon
  rintro ⟨a, b⟩
  rcases h with h | h <;> split_ifs at a b <;> linarith

/-- **C03.** A longitude already in range is left alone, so normalising twice equals normalising
once on the supported inputs. -/
theorem C03_fixes_valid (lon : ℝ) (h : ValidLon lon) : normalizeLongitude lon = lon := by
  obtain ⟨a, b⟩ := h
  unfold normalizeLongitude
  split_ifs <;> linarith

example : ValidLon 180 ∧ ¬ ValidLon (-180) := by
  constructor
  · constructor <;> norm_num
  · rintro ⟨a, _⟩; linarith

/-- **C01.** The scale of the local coordinates: a degree northwards is 1/360 of 40008 km, a degree
eastwards is 1/360 of the parallel of the binding point on an equator of 40075.16 km; the difference of
the longitudes is taken the short way round. The binding point is the origin. -/
theorem C01_scale (p bind : GeoPoint) (hp : ValidLon p.longitude) (hb : ValidLon bind.longitude) :
    (∃ d : ℝ, ValidLon d ∧ SameMeridian d (p.longitude - bind.longitude) ∧
      gpsToLocal p bind = ⟨d * (40075160 * Real.cos (bind.latitude * Real.pi / 180)) / 360,
        (p.latitude - bind.latitude) * 40008000 / 360⟩) ∧
    gpsToLocal bind bind = ⟨0, 0⟩ := by
  have h0 : normalizeLongitude 0 = 0 := by unfold normalizeLongitude; norm_num
  obtain ⟨p1, p2⟩ := hp
  obtain ⟨b1, b2⟩ := hb
  refine ⟨⟨normalizeLongitude (p.longitude - bind.longitude), ?_, ?_, ?_⟩, ?_⟩
  · unfold normalizeLongitude ValidLon
    split_ifs <;> constructor <;> linarith
  · unfold normalizeLongitude SameMeridian
    split_ifs
    · exact ⟨-1, by push_cast; ring⟩
    · exact ⟨1, by push_cast; ring⟩
    · exact ⟨0, by push_cast; ring⟩
  · ext
    · simp only [gpsToLocal, latitudeCircumference, equatorCircumference, degToRad]; ring
    · simp only [gpsToLocal, poleCircumference]; ring
  · ext <;> simp [gpsToLocal, h0]

/-- One degree across the date line at latitude 60: half of 1/360 of the equator, eastwards. -/
example : gpsToLocal ⟨60, -179.5⟩ ⟨60, 179.5⟩ = ⟨40075160 / 2 / 360, 0⟩ := by
  have h : Real.cos (60 * Real.pi / 180) = 1 / 2 := by
    rw [show 60 * Real.pi / 180 = Real.pi / 3 by ring, Real.cos_pi_div_three]
  ext
  · simp only [gpsToLocal, latitudeCircumference, equatorCircumference, degToRad, h, normalizeLongitude]
    norm_num
  · simp [gpsToLocal]

end Verif.Geo
