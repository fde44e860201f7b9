import Mathlib.Analysis.SpecialFunctions.Trigonometric.Bounds
import Mathlib.Analysis.Real.Pi.Bounds
import Verif.Fp.GeoModel
import Verif.Fp.Lemmas
import Verif.Geo.Props

/-!
# Property theorems for C128: rounding errors of the geographic conversions
-/

namespace Verif.Fp

open Verif.Geo

/-- A bound for the relative rounding error. -/
noncomputable def U : ℝ := 1.2 / 10 ^ 16

theorem U_pos : 0 < U := by unfold U; norm_num

theorem u_lt : u + 1 / 10 ^ 18 ≤ U := by
  unfold u U
  norm_num [zpow_neg]

theorem tiny_le : tiny ≤ 1 / 10 ^ 150 := by
  calc tiny ≤ u ^ 20 := tiny_small
    _ ≤ (1 / 10 ^ 15) ^ 20 := pow_le_pow_left₀ u_pos.le u_small 20
    _ ≤ (1 / 10 ^ 15) ^ 10 := pow_le_pow_of_le_one (by norm_num) (by norm_num) (by norm_num)
    _ = 1 / 10 ^ 150 := by norm_num

variable (R : Rounding) (K : Cosine)

theorem rnd_abs {x X : ℝ} (h : |x| ≤ X) (hX : 1 / 10 ^ 100 ≤ X) : |R.rnd x - x| ≤ U * X := by
  have h1 := R.near x
  have h2 := u_lt
  have h3 := tiny_le
  have h4 : u * |x| ≤ u * X := mul_le_mul_of_nonneg_left h u_pos.le
  have h5 : (u + 1 / 10 ^ 18) * X ≤ U * X := mul_le_mul_of_nonneg_right h2 (by linarith [show (0:ℝ) < 1 / 10 ^ 100 by norm_num])
  have h6 : (1 / 10 ^ 150 : ℝ) ≤ 1 / 10 ^ 18 * X := by
    calc (1 / 10 ^ 150 : ℝ) ≤ 1 / 10 ^ 18 * (1 / 10 ^ 100) := by norm_num
      _ ≤ _ := mul_le_mul_of_nonneg_left hX (by norm_num)
  linarith

/-- A rounded sum, with the sum known up to `e`. -/
theorem rnd_near {x y e X : ℝ} (h : |y - x| ≤ e) (hX : |x| + e ≤ X) (h0 : 1 / 10 ^ 100 ≤ X) : |R.rnd y - x| ≤ e + U * X := by
  have h1 : |y| ≤ X := by
    have := abs_add_le x (y - x)
    rw [add_sub_cancel] at this
    linarith
  have h2 := rnd_abs R h1 h0
  have h3 := abs_sub_le (R.rnd y) y x
  linarith

theorem mul_near {a a' b b' e f A B : ℝ} (ha : |a' - a| ≤ e) (hb : |b' - b| ≤ f) (hA : |a| ≤ A) (hB : |b'| ≤ B) :
    |a' * b' - a * b| ≤ e * B + A * f := by
  have e1 : a' * b' - a * b = (a' - a) * b' + a * (b' - b) := by ring
  rw [e1]
  refine (abs_add_le _ _).trans ?_
  rw [abs_mul, abs_mul]
  exact add_le_add (mul_le_mul ha hB (abs_nonneg _) ((abs_nonneg _).trans ha)) (mul_le_mul hA hb (abs_nonneg _) ((abs_nonneg _).trans hA))

/-- The normalised longitude is on the same meridian, up to a rounding. -/
theorem normalizeF_turn {a : ℝ} (h : |a| ≤ 190) : ∃ k : ℤ, (k = -1 ∨ k = 0 ∨ k = 1) ∧ |normalizeF R a - (a - 360 * k)| ≤ 180 * U ∧
    |normalizeF R a| ≤ 181 := by
  have hU := U_pos
  have hU1 : U ≤ 1 / 1000 := by unfold U; norm_num
  obtain ⟨h1, h2⟩ := abs_le.mp h
  unfold normalizeF
  split_ifs with c1 c2
  · have := rnd_abs R (x := a - 360) (X := 180) (abs_le.mpr ⟨by linarith, by linarith⟩) (by norm_num)
    refine ⟨1, by simp, by push_cast; rw [mul_one]; linarith, ?_⟩
    rw [abs_le] at this ⊢
    constructor <;> linarith
  · have := rnd_abs R (x := a + 360) (X := 180) (abs_le.mpr ⟨by linarith, by linarith⟩) (by norm_num)
    refine ⟨-1, by simp, ?_, ?_⟩
    · push_cast
      rw [show a - 360 * -1 = a + 360 by ring]
      linarith
    · rw [abs_le] at this ⊢
      constructor <;> linarith
  · push Not at c1 c2
    refine ⟨0, by simp, by simp; positivity, abs_le.mpr ⟨by linarith, by linarith⟩⟩

/-- The normalised difference of longitudes is the difference the short way round, up to a rounding. -/
theorem normalizeF_near {a D e : ℝ} {k : ℤ} (hk : k = -1 ∨ k = 0 ∨ k = 1) (hD : |D| ≤ 5) (h : |a - (D - 360 * k)| ≤ e) (he : e ≤ 1 / 10) :
    |normalizeF R a - D| ≤ e + 6 * U := by
  have hU := U_pos
  obtain ⟨d1, d2⟩ := abs_le.mp hD
  obtain ⟨h1, h2⟩ := abs_le.mp h
  unfold normalizeF
  rcases hk with rfl | rfl | rfl
  · push_cast at h h1 h2
    rw [if_pos (by linarith)]
    have := rnd_near R (x := D) (y := a - 360) (e := e) (X := 6) (by
      rw [show a - 360 - D = a - (D - 360 * -1) by ring]; exact h) (by linarith) (by norm_num)
    linarith
  · push_cast at h h1 h2
    rw [if_neg (by linarith), if_neg (by linarith)]
    rw [show a - D = a - (D - 360 * 0) by ring]
    linarith
  · push_cast at h h1 h2
    rw [if_neg (by linarith), if_pos (by linarith)]
    have := rnd_near R (x := D) (y := a + 360) (e := e) (X := 6) (by
      rw [show a + 360 - D = a - (D - 360 * 1) by ring]; exact h) (by linarith) (by norm_num)
    linarith

/-- The computed parallel of the binding point. -/
theorem circumference_near (bind : GeoPoint) (hl : |bind.latitude| ≤ 90) :
    |circumferenceF R K bind - latitudeCircumference bind| ≤ 320000000 * U := by
  have hU := U_pos
  have hU1 : U ≤ 1 / 10 ^ 15 := by unfold U; norm_num
  have hpi : |Real.pi| ≤ 3.15 := by
    rw [abs_of_pos Real.pi_pos]
    linarith [Real.pi_lt_d2]
  have e1 : |R.rnd Real.pi - Real.pi| ≤ U * 3.15 := rnd_abs R hpi (by norm_num)
  have e2 : |R.rnd Real.pi| ≤ 3.16 := by
    have := abs_add_le Real.pi (R.rnd Real.pi - Real.pi)
    rw [add_sub_cancel] at this
    linarith
  have e3 : |bind.latitude * R.rnd Real.pi - bind.latitude * Real.pi| ≤ 284 * U := by
    have := mul_near (a := bind.latitude) (a' := bind.latitude) (e := 0) (by simp) e1 hl e2
    linarith
  have e4 : |bind.latitude * Real.pi| ≤ 284 := by
    rw [abs_mul]
    calc |bind.latitude| * |Real.pi| ≤ 90 * 3.15 := mul_le_mul hl hpi (abs_nonneg _) (by norm_num)
      _ ≤ 284 := by norm_num
  have e5 := rnd_near R e3 (X := 285) (by linarith) (by norm_num)
  have e6 : |R.rnd (bind.latitude * R.rnd Real.pi) / 180 - bind.latitude * Real.pi / 180| ≤ 3.2 * U := by
    rw [← sub_div, abs_div, abs_of_pos (by norm_num : (0 : ℝ) < 180), div_le_iff₀ (by norm_num)]
    linarith
  have e7 : |bind.latitude * Real.pi / 180| ≤ 1.58 := by
    rw [abs_div, abs_of_pos (by norm_num : (0 : ℝ) < 180), div_le_iff₀ (by norm_num)]
    linarith
  have e8 : |degToRadF R bind.latitude - degToRad bind.latitude| ≤ 3.2 * U + U * 1.6 := by
    unfold degToRadF degToRad
    exact rnd_near R e6 (X := 1.6) (by linarith) (by norm_num)
  have e9 := (Real.abs_cos_sub_cos_le (degToRadF R bind.latitude) (degToRad bind.latitude)).trans e8
  have e10 := K.near (degToRadF R bind.latitude)
  have e11 : |K.cos (degToRadF R bind.latitude) - Real.cos (degToRad bind.latitude)| ≤ 6.8 * U := by
    have := abs_sub_le (K.cos (degToRadF R bind.latitude)) (Real.cos (degToRadF R bind.latitude)) (Real.cos (degToRad bind.latitude))
    have := u_lt
    linarith
  have e12 : |40075160 * K.cos (degToRadF R bind.latitude) - 40075160 * Real.cos (degToRad bind.latitude)| ≤ 272600000 * U := by
    rw [← mul_sub, abs_mul, abs_of_pos (by norm_num : (0 : ℝ) < 40075160)]
    linarith
  have e13 : |40075160 * Real.cos (degToRad bind.latitude)| ≤ 40075160 := by
    rw [abs_mul, abs_of_pos (by norm_num : (0 : ℝ) < 40075160)]
    linarith [Real.abs_cos_le_one (degToRad bind.latitude)]
  have e14 := rnd_near R e12 (X := 40080000) (by linarith) (by norm_num)
  unfold circumferenceF latitudeCircumference equatorCircumference
  linarith

/-- The computed parallel, for a binding point whose parallel is at least a fiftieth of the equator. -/
theorem circumference_range (bind : GeoPoint) (hl : |bind.latitude| ≤ 90) (hc : 1 / 50 ≤ Real.cos (bind.latitude * Real.pi / 180)) :
    801000 ≤ circumferenceF R K bind ∧ circumferenceF R K bind ≤ 40076000 ∧ 801000 ≤ latitudeCircumference bind ∧
      latitudeCircumference bind ≤ 40075160 := by
  have hU := U_pos
  have hU1 : U ≤ 1 / 10 ^ 15 := by unfold U; norm_num
  have h1 := abs_le.mp (circumference_near R K bind hl)
  have h2 : latitudeCircumference bind = 40075160 * Real.cos (bind.latitude * Real.pi / 180) := rfl
  have h3 := Real.cos_le_one (bind.latitude * Real.pi / 180)
  refine ⟨?_, ?_, ?_, ?_⟩ <;> linarith

theorem div_near {a a' b b' e f A B : ℝ} (ha : |a' - a| ≤ e) (hb : |b' - b| ≤ f) (hA : |a| ≤ A) (hB : 0 < B) (h1 : B ≤ b) (h2 : B ≤ b') :
    |a' / b' - a / b| ≤ e / B + A * f / (B * B) := by
  have hb0 : 0 < b := by linarith
  have hb0' : 0 < b' := by linarith
  have hf : 0 ≤ f := (abs_nonneg _).trans hb
  have hA0 : 0 ≤ A := (abs_nonneg _).trans hA
  have he : 0 ≤ e := (abs_nonneg _).trans ha
  have e1 : a' / b' - a / b = (a' - a) / b' - a * (b' - b) / (b * b') := by field_simp; ring
  rw [e1]
  refine (abs_sub _ _).trans ?_
  rw [abs_div, abs_div, abs_mul, abs_of_pos hb0', abs_of_pos (mul_pos hb0 hb0')]
  refine add_le_add (div_le_div₀ he ha hB h2) (div_le_div₀ (mul_nonneg hA0 hf) (mul_le_mul hA hb (abs_nonneg _) hA0) (mul_pos hB hB) ?_)
  exact mul_le_mul h1 h2 hB.le hb0.le

/-- The degrees of an eastward distance: the quotient, as computed. -/
theorem degrees_near {x C : ℝ} (hx : |x| ≤ 10000) (hC : 801000 ≤ C) : |R.rnd (R.rnd (x * 360) / C) - x * 360 / C| ≤ 10 * U ∧
    |x * 360 / C| ≤ 4.5 := by
  have hU := U_pos
  have hU1 : U ≤ 1 / 10 ^ 15 := by unfold U; norm_num
  have h0 : |x * 360| ≤ 3600000 := by rw [abs_mul, abs_of_pos (by norm_num : (0 : ℝ) < 360)]; linarith
  have h1 := rnd_abs R h0 (by norm_num)
  have h2 : |R.rnd (x * 360) / C - x * 360 / C| ≤ 4.5 * U := by
    have := div_near (b := C) (b' := C) (f := 0) h1 (by simp) h0 (by norm_num : (0 : ℝ) < 801000) hC hC
    linarith
  have h3 : |x * 360 / C| ≤ 4.5 := by
    rw [abs_div, abs_of_pos (by linarith : (0 : ℝ) < C), div_le_iff₀ (by linarith)]
    linarith
  refine ⟨?_, h3⟩
  have := rnd_near R h2 (X := 5) (by linarith) (by norm_num)
  linarith

/-- The longitude computed from a place: right up to rounding, and up to whole turns. -/
theorem longitude_near {D a2 e b : ℝ} (hD : |D| ≤ 4.5) (h : |a2 - D| ≤ e) (he : e ≤ 1 / 10) (hb : |b| ≤ 180) :
    ∃ k : ℤ, (k = -1 ∨ k = 0 ∨ k = 1) ∧ |normalizeF R (R.rnd (a2 + b)) - (D + b - 360 * k)| ≤ e + 367 * U ∧
      |normalizeF R (R.rnd (a2 + b))| ≤ 181 := by
  have hU := U_pos
  have hU1 : U ≤ 1 / 10 ^ 15 := by unfold U; norm_num
  have h1 : |D + b| ≤ 184.5 := by have := abs_add_le D b; linarith
  have h2 : |a2 + b - (D + b)| ≤ e := by rw [show a2 + b - (D + b) = a2 - D by ring]; exact h
  have h3 := rnd_near R h2 (X := 185) (by linarith) (by norm_num)
  have h4 : |R.rnd (a2 + b)| ≤ 190 := by
    have := abs_add_le (D + b) (R.rnd (a2 + b) - (D + b))
    rw [add_sub_cancel] at this
    linarith
  obtain ⟨k, hk, h5, h6⟩ := normalizeF_turn R h4
  refine ⟨k, hk, ?_, h6⟩
  have := abs_sub_le (normalizeF R (R.rnd (a2 + b))) (R.rnd (a2 + b) - 360 * k) (D + b - 360 * k)
  rw [show R.rnd (a2 + b) - 360 * k - (D + b - 360 * k) = R.rnd (a2 + b) - (D + b) by ring] at this
  linarith

/-- The place computed from a difference of longitudes known up to `e`. -/
theorem east_near {a D e C : ℝ} (hD : |D| ≤ 5) (h : |a - D| ≤ e) (he : e ≤ 1 / 10) (hC : 801000 ≤ C) (hC' : C ≤ 40076000) :
    |R.rnd (a * R.rnd (C / 360)) - D * (C / 360)| ≤ 111400 * e + 1200000 * U := by
  have hU := U_pos
  have hU1 : U ≤ 1 / 10 ^ 15 := by unfold U; norm_num
  have he0 : 0 ≤ e := (abs_nonneg _).trans h
  have h1 : |C / 360| ≤ 111323 := by
    rw [abs_of_pos (by linarith)]
    linarith
  have h2 := rnd_abs R h1 (by norm_num)
  have h3 : |R.rnd (C / 360)| ≤ 111324 := by
    have := abs_add_le (C / 360) (R.rnd (C / 360) - C / 360)
    rw [add_sub_cancel] at this
    linarith
  have h4 := mul_near h h2 hD h3
  have h5 : |D * (C / 360)| ≤ 556615 := by
    rw [abs_mul]
    calc |D| * |C / 360| ≤ 5 * 111323 := mul_le_mul hD h1 (abs_nonneg _) (by norm_num)
      _ = _ := by norm_num
  have h6 := rnd_near R h4 (X := 570000) (by linarith) (by norm_num)
  linarith

/-- The latitude computed from a place, with a northward distance of at most ten kilometres. -/
theorem north_near {y b : ℝ} (hy : |y| ≤ 10000) (hb : |b| ≤ 90) :
    |R.rnd (R.rnd (y * R.rnd (360 / 40008000)) + b) - (y * (360 / 40008000) + b)| ≤ 92 * U := by
  have hU := U_pos
  have hU1 : U ≤ 1 / 10 ^ 15 := by unfold U; norm_num
  have h1 : |(360 / 40008000 : ℝ)| ≤ 1 / 100000 := by rw [abs_of_pos (by norm_num)]; norm_num
  have h2 := rnd_abs R h1 (by norm_num)
  have h3 : |R.rnd (360 / 40008000)| ≤ 1 / 10000 := by
    have := abs_add_le (360 / 40008000 : ℝ) (R.rnd (360 / 40008000) - 360 / 40008000)
    rw [add_sub_cancel] at this
    linarith
  have h4 := mul_near (a := y) (a' := y) (e := 0) (by simp) h2 hy h3
  have h5 : |y * (360 / 40008000)| ≤ 1 / 10 := by
    rw [abs_mul]
    calc |y| * |(360 / 40008000 : ℝ)| ≤ 10000 * (1 / 100000) := mul_le_mul hy h1 (abs_nonneg _) (by norm_num)
      _ = _ := by norm_num
  have h6 := rnd_near R h4 (X := 1 / 5) (by linarith) (by norm_num)
  have h7 : |R.rnd (y * R.rnd (360 / 40008000)) + b - (y * (360 / 40008000) + b)| ≤ U := by
    rw [add_sub_add_right_eq_sub]
    linarith
  have h8 : |y * (360 / 40008000) + b| ≤ 90.1 := by have := abs_add_le (y * (360 / 40008000)) b; linarith
  have := rnd_near R h7 (X := 90.2) (by linarith) (by norm_num)
  linarith

/-- The northward distance computed from a latitude known up to `e`. -/
theorem northward_near {l b d e : ℝ} (h : |l - b - d| ≤ e) (hd : |d| ≤ 1) (he : e ≤ 1 / 10) :
    |R.rnd (R.rnd (l - b) * R.rnd (40008000 / 360)) - d * (40008000 / 360)| ≤ 111200 * e + 600000 * U := by
  have hU := U_pos
  have hU1 : U ≤ 1 / 10 ^ 15 := by unfold U; norm_num
  have he0 : 0 ≤ e := (abs_nonneg _).trans h
  have h1 := rnd_near R h (X := 2) (by linarith) (by norm_num)
  have h2 : |(40008000 / 360 : ℝ)| ≤ 111134 := by rw [abs_of_pos (by norm_num)]; norm_num
  have h3 := rnd_abs R h2 (by norm_num)
  have h4 : |R.rnd (40008000 / 360)| ≤ 111135 := by
    have := abs_add_le (40008000 / 360 : ℝ) (R.rnd (40008000 / 360) - 40008000 / 360)
    rw [add_sub_cancel] at this
    linarith
  have h5 := mul_near h1 h3 hd h4
  have h6 : |d * (40008000 / 360)| ≤ 111134 := by
    rw [abs_mul]
    calc |d| * |(40008000 / 360 : ℝ)| ≤ 1 * 111134 := mul_le_mul hd h2 (abs_nonneg _) (by norm_num)
      _ = _ := by norm_num
  have h7 := rnd_near R h5 (X := 130000) (by linarith) (by norm_num)
  linarith

/-- Binding points away from the poles, where a parallel is at least a fiftieth of the equator (latitudes up to 88.85 degrees). -/
structure Habitable (bind : GeoPoint) : Prop where
  latitude : |bind.latitude| ≤ 90
  parallel : 1 / 50 ≤ Real.cos (bind.latitude * Real.pi / 180)
  longitude : |bind.longitude| ≤ 180

/-- **C128.** Every place within ten kilometres of the binding point survives the conversion to latitude and longitude and back, in
floating point arithmetic: the error is less than twenty nanometres, on both sides of the antimeridian, whatever the error of the
cosine (the same cosine divides and multiplies). -/
theorem C128_local_geo_local (q : XYPoint) (bind : GeoPoint) (hb : Habitable bind) (hx : |q.x| ≤ 10000) (hy : |q.y| ≤ 10000) :
    |(gpsToLocalF R K (localToGpsF R K q bind) bind).x - q.x| ≤ 2 / 10 ^ 8 ∧
      |(gpsToLocalF R K (localToGpsF R K q bind) bind).y - q.y| ≤ 2 / 10 ^ 8 := by
  have hU := U_pos
  have hU1 : U ≤ 1 / 10 ^ 15 := by unfold U; norm_num
  have hU2 : U = 1.2 / 10 ^ 16 := rfl
  obtain ⟨hc1, hc2, -, -⟩ := circumference_range R K bind hb.latitude hb.parallel
  constructor
  · simp only [gpsToLocalF, localToGpsF]
    generalize circumferenceF R K bind = C at *
    have hC0 : C ≠ 0 := by linarith
    rw [divide_eq hC0]
    obtain ⟨h1, h2⟩ := degrees_near R hx hc1
    obtain ⟨k, hk, h3, h4⟩ := longitude_near R h2 h1 (by linarith) hb.longitude
    generalize normalizeF R (R.rnd (R.rnd (R.rnd (q.x * 360) / C) + bind.longitude)) = L at *
    have h5 : |L - bind.longitude - (q.x * 360 / C - 360 * k)| ≤ 377 * U := by
      rw [show L - bind.longitude - (q.x * 360 / C - 360 * k) = L - (q.x * 360 / C + bind.longitude - 360 * k) by ring]
      linarith
    have hk' : |q.x * 360 / C - 360 * (k : ℝ)| ≤ 365 := by
      have h6 := abs_sub (q.x * 360 / C) (360 * (k : ℝ))
      have h7 : |360 * (k : ℝ)| ≤ 360 := by rcases hk with rfl | rfl | rfl <;> norm_num
      linarith
    have h6 := rnd_near R h5 (X := 366) (by linarith) (by norm_num)
    have h7 := normalizeF_near R hk (by linarith) h6 (by linarith)
    have h8 := east_near R (by linarith : |q.x * 360 / C| ≤ 5) h7 (by linarith) hc1 hc2
    rw [show q.x * 360 / C * (C / 360) = q.x by field_simp] at h8
    refine h8.trans ?_
    rw [hU2]
    norm_num
  · simp only [gpsToLocalF, localToGpsF]
    have h1 := north_near R hy hb.latitude
    have h2 : |q.y * (360 / 40008000)| ≤ 1 := by
      rw [abs_mul, abs_of_pos (by norm_num : (0 : ℝ) < 360 / 40008000)]
      linarith
    generalize R.rnd (R.rnd (q.y * R.rnd (360 / 40008000)) + bind.latitude) = l at *
    have h3 := northward_near R (l := l) (b := bind.latitude) (d := q.y * (360 / 40008000)) (e := 92 * U) (by
      rw [show l - bind.latitude - q.y * (360 / 40008000) = l - (q.y * (360 / 40008000) + bind.latitude) by ring]
      exact h1) h2 (by linarith)
    rw [show q.y * (360 / 40008000) * (40008000 / 360) = q.y by ring] at h3
    refine h3.trans ?_
    rw [hU2]
    norm_num

/-- **C128.** The latitude and longitude computed for a place within ten kilometres of the binding point are those of the real
formula up to `10⁻¹²` degrees (less than a micrometre); the longitude up to whole turns, because a place on the antimeridian may be
named by either of its two longitudes. -/
theorem C128_to_geo (q : XYPoint) (bind : GeoPoint) (hb : Habitable bind) (hx : |q.x| ≤ 10000) (hy : |q.y| ≤ 10000) :
    |(localToGpsF R K q bind).latitude - (localToGps q bind).latitude| ≤ 1 / 10 ^ 12 ∧
      ∃ k : ℤ, |(localToGpsF R K q bind).longitude - (localToGps q bind).longitude - 360 * k| ≤ 1 / 10 ^ 12 := by
  have hU := U_pos
  have hU1 : U ≤ 1 / 10 ^ 15 := by unfold U; norm_num
  have hU2 : U = 1.2 / 10 ^ 16 := rfl
  obtain ⟨hc1, hc2, hc3, hc4⟩ := circumference_range R K bind hb.latitude hb.parallel
  have hcn := circumference_near R K bind hb.latitude
  constructor
  · simp only [localToGpsF, localToGps, poleCircumference]
    refine (north_near R hy hb.latitude).trans ?_
    rw [hU2]
    norm_num
  · simp only [localToGpsF, localToGps]
    generalize circumferenceF R K bind = C at *
    generalize latitudeCircumference bind = C' at *
    rw [divide_eq (by linarith : C ≠ 0), divide_eq (by linarith : C' ≠ 0)]
    have h0 : |q.x * 360| ≤ 3600000 := by rw [abs_mul, abs_of_pos (by norm_num : (0 : ℝ) < 360)]; linarith
    obtain ⟨h1, -⟩ := degrees_near R hx hc1
    obtain ⟨-, h2⟩ := degrees_near R hx hc3
    have h3 := div_near (a := q.x * 360) (a' := q.x * 360) (e := 0) (by simp) hcn h0 (by norm_num : (0 : ℝ) < 801000) hc3 hc1
    have h4 : |R.rnd (R.rnd (q.x * 360) / C) - q.x * 360 / C'| ≤ 1806 * U := by
      have := abs_sub_le (R.rnd (R.rnd (q.x * 360) / C)) (q.x * 360 / C) (q.x * 360 / C')
      linarith
    obtain ⟨k, hk, h5, -⟩ := longitude_near R h2 h4 (by linarith) hb.longitude
    obtain ⟨j, hj⟩ := (C03_normalize (q.x * 360 / C' + bind.longitude)).1
    refine ⟨-k - j, ?_⟩
    rw [hj]
    push_cast
    refine le_trans (le_of_eq ?_) (h5.trans (by rw [hU2]; norm_num))
    congr 1
    ring

/-- The two points are at most `d` degrees of longitude and one degree of latitude apart, the short way round. -/
def Close (d : ℝ) (p bind : GeoPoint) : Prop :=
  |p.latitude - bind.latitude| ≤ 1 ∧ |normalizeLongitude (p.longitude - bind.longitude)| ≤ d

/-- The difference of two longitudes, as computed. -/
theorem difference_near {p bind : GeoPoint} (hp : ValidLon p.longitude) (hb : ValidLon bind.longitude) (hd : Close 4.5 p bind) :
    |normalizeF R (R.rnd (p.longitude - bind.longitude)) - normalizeLongitude (p.longitude - bind.longitude)| ≤ 371 * U ∧
      ∃ k : ℤ, normalizeLongitude (p.longitude - bind.longitude) = p.longitude - bind.longitude + 360 * k := by
  have hU := U_pos
  have hU1 : U ≤ 1 / 10 ^ 15 := by unfold U; norm_num
  obtain ⟨p1, p2⟩ := hp
  obtain ⟨b1, b2⟩ := hb
  have h1 := rnd_abs R (x := p.longitude - bind.longitude) (X := 365) (abs_le.mpr ⟨by linarith, by linarith⟩) (by norm_num)
  have hk : ∃ k : ℤ, (k = -1 ∨ k = 0 ∨ k = 1) ∧ normalizeLongitude (p.longitude - bind.longitude) = p.longitude - bind.longitude + 360 * k := by
    unfold normalizeLongitude
    split_ifs
    · exact ⟨-1, by simp, by push_cast; ring⟩
    · exact ⟨1, by simp, by push_cast; ring⟩
    · exact ⟨0, by simp, by push_cast; ring⟩
  obtain ⟨k, hk, hn⟩ := hk
  refine ⟨?_, k, hn⟩
  have h2 := hd.2
  have h3 : |R.rnd (p.longitude - bind.longitude) - (normalizeLongitude (p.longitude - bind.longitude) - 360 * k)| ≤ U * 365 := by
    rw [hn, add_sub_cancel_right]
    exact h1
  have := normalizeF_near R hk (by linarith) h3 (by linarith)
  linarith

/-- **C128.** The place computed for a point within about four degrees of the binding point is the one of the real formula up to
twenty nanometres. -/
theorem C128_to_local (p bind : GeoPoint) (hb : Habitable bind) (hv : ValidLon bind.longitude) (hp : ValidLon p.longitude)
    (hd : Close 4.5 p bind) :
    |(gpsToLocalF R K p bind).x - (gpsToLocal p bind).x| ≤ 2 / 10 ^ 8 ∧
      |(gpsToLocalF R K p bind).y - (gpsToLocal p bind).y| ≤ 2 / 10 ^ 8 := by
  have hU := U_pos
  have hU1 : U ≤ 1 / 10 ^ 15 := by unfold U; norm_num
  have hU2 : U = 1.2 / 10 ^ 16 := rfl
  obtain ⟨hc1, hc2, hc3, hc4⟩ := circumference_range R K bind hb.latitude hb.parallel
  have hcn := circumference_near R K bind hb.latitude
  obtain ⟨h1, -⟩ := difference_near R hp hv hd
  have h2 := hd.2
  constructor
  · simp only [gpsToLocalF, gpsToLocal]
    generalize normalizeLongitude (p.longitude - bind.longitude) = D at *
    generalize normalizeF R (R.rnd (p.longitude - bind.longitude)) = a at *
    have h3 := east_near R (by linarith : |D| ≤ 5) h1 (by linarith) hc1 hc2
    generalize circumferenceF R K bind = C at *
    generalize latitudeCircumference bind = C' at *
    have h4 : |D * (C / 360) - D * (C' / 360)| ≤ 4000000 * U := by
      rw [← mul_sub, abs_mul, ← sub_div, abs_div, abs_of_pos (by norm_num : (0 : ℝ) < 360)]
      calc |D| * (|C - C'| / 360) ≤ 4.5 * (320000000 * U / 360) := by
            refine mul_le_mul h2 ?_ (by positivity) (by norm_num)
            exact div_le_div_of_nonneg_right hcn (by norm_num)
        _ = 4000000 * U := by ring
    have h5 := abs_sub_le (R.rnd (a * R.rnd (C / 360))) (D * (C / 360)) (D * (C' / 360))
    refine h5.trans ((add_le_add h3 h4).trans ?_)
    rw [hU2]
    norm_num
  · simp only [gpsToLocalF, gpsToLocal, poleCircumference]
    have h3 := northward_near R (l := p.latitude) (b := bind.latitude) (d := p.latitude - bind.latitude) (e := 0) (by simp) hd.1 (by norm_num)
    refine h3.trans ?_
    rw [hU2]
    norm_num

/-- **C128.** A point within about four degrees of the binding point survives the conversion to a place and back, in floating point
arithmetic, up to `10⁻¹³` degrees (eleven nanometres), the longitude up to whole turns. -/
theorem C128_geo_local_geo (p bind : GeoPoint) (hb : Habitable bind) (hv : ValidLon bind.longitude) (hp : ValidLon p.longitude)
    (hd : Close 4.5 p bind) :
    |(localToGpsF R K (gpsToLocalF R K p bind) bind).latitude - p.latitude| ≤ 1 / 10 ^ 13 ∧
      ∃ k : ℤ, |(localToGpsF R K (gpsToLocalF R K p bind) bind).longitude - p.longitude - 360 * k| ≤ 1 / 10 ^ 13 := by
  have hU := U_pos
  have hU1 : U ≤ 1 / 10 ^ 15 := by unfold U; norm_num
  have hU2 : U = 1.2 / 10 ^ 16 := rfl
  obtain ⟨hc1, hc2, -, -⟩ := circumference_range R K bind hb.latitude hb.parallel
  obtain ⟨h1, j, hj⟩ := difference_near R hp hv hd
  have h2 := hd.2
  constructor
  · simp only [gpsToLocalF, localToGpsF]
    have h3 := northward_near R (l := p.latitude) (b := bind.latitude) (d := p.latitude - bind.latitude) (e := 0) (by simp) hd.1 (by norm_num)
    have hd1 := hd.1
    generalize R.rnd (R.rnd (p.latitude - bind.latitude) * R.rnd (40008000 / 360)) = Y at *
    have q1 : |(360 / 40008000 : ℝ)| ≤ 1 / 100000 := by rw [abs_of_pos (by norm_num)]; norm_num
    have q2 := rnd_abs R q1 (by norm_num)
    have q3 : |R.rnd (360 / 40008000)| ≤ 1.1 / 100000 := by
      have := abs_add_le (360 / 40008000 : ℝ) (R.rnd (360 / 40008000) - 360 / 40008000)
      rw [add_sub_cancel] at this
      linarith
    have q4 : |(p.latitude - bind.latitude) * (40008000 / 360)| ≤ 111134 := by
      rw [abs_mul, abs_of_pos (by norm_num : (0 : ℝ) < 40008000 / 360)]
      linarith
    have h4 := mul_near h3 q2 q4 q3
    rw [show (p.latitude - bind.latitude) * (40008000 / 360) * (360 / 40008000) = p.latitude - bind.latitude by ring] at h4
    have h5 := rnd_near R h4 (X := 2) (by linarith) (by norm_num)
    have h6 : |R.rnd (Y * R.rnd (360 / 40008000)) + bind.latitude - p.latitude| ≤ 10 * U := by
      rw [show R.rnd (Y * R.rnd (360 / 40008000)) + bind.latitude - p.latitude =
        R.rnd (Y * R.rnd (360 / 40008000)) - (p.latitude - bind.latitude) by ring]
      linarith
    have h7 : |p.latitude| ≤ 91 := by
      have := abs_add_le bind.latitude (p.latitude - bind.latitude)
      rw [add_sub_cancel] at this
      linarith [hb.latitude]
    have h8 := rnd_near R h6 (X := 92) (by linarith) (by norm_num)
    refine h8.trans ?_
    rw [hU2]
    norm_num
  · simp only [gpsToLocalF, localToGpsF]
    generalize normalizeLongitude (p.longitude - bind.longitude) = D at *
    generalize normalizeF R (R.rnd (p.longitude - bind.longitude)) = a at *
    generalize circumferenceF R K bind = C at *
    have hC : 0 < C := by linarith
    rw [divide_eq hC.ne']
    have ha : |a| ≤ 4.6 := by
      have := abs_add_le D (a - D)
      rw [add_sub_cancel] at this
      linarith
    have hUC : U * C ≤ 1 / 10 ^ 15 * C := mul_le_mul_of_nonneg_right hU1 hC.le
    have hUC0 : 0 < U * C := mul_pos hU hC
    have h3 := rnd_abs R (x := C / 360) (X := C / 360) (le_of_eq (abs_of_pos (by positivity))) (by linarith)
    have h4 : |R.rnd (C / 360)| ≤ 1.01 * (C / 360) := by
      have := abs_add_le (C / 360) (R.rnd (C / 360) - C / 360)
      rw [add_sub_cancel, abs_of_pos (by positivity : 0 < C / 360)] at this
      linarith
    have h5 := mul_near (a := a) (a' := a) (e := 0) (by simp) h3 ha h4
    have h6 : |a * (C / 360)| ≤ 4.6 * (C / 360) := by
      rw [abs_mul, abs_of_pos (by positivity : 0 < C / 360)]
      exact mul_le_mul_of_nonneg_right ha (by positivity)
    have h7 := rnd_near R h5 (X := 4.7 * (C / 360)) (by linarith) (by linarith)
    generalize R.rnd (a * R.rnd (C / 360)) = X at *
    have h8 : |X * 360 - a * C| ≤ 10 * (U * C) := by
      rw [show X * 360 - a * C = (X - a * (C / 360)) * 360 by ring, abs_mul, abs_of_pos (by norm_num : (0 : ℝ) < 360)]
      linarith
    have h9 : |a * C| ≤ 4.6 * C := by
      rw [abs_mul, abs_of_pos hC]
      exact mul_le_mul_of_nonneg_right ha hC.le
    have h10 := rnd_near R h8 (X := 4.7 * C) (by linarith) (by linarith)
    have h11 : |R.rnd (X * 360) / C - a| ≤ 15 * U := by
      rw [show R.rnd (X * 360) / C - a = (R.rnd (X * 360) - a * C) / C by field_simp, abs_div, abs_of_pos hC, div_le_iff₀ hC]
      linarith
    have h12 := rnd_near R h11 (X := 5) (by linarith) (by norm_num)
    have h13 : |R.rnd (R.rnd (X * 360) / C) - D| ≤ 391 * U := by
      have := abs_sub_le (R.rnd (R.rnd (X * 360) / C)) a D
      linarith
    obtain ⟨k, -, h14, -⟩ := longitude_near R h2 h13 (by linarith) hb.longitude
    refine ⟨j - k, ?_⟩
    rw [hj] at h14
    push_cast
    refine le_trans (le_of_eq ?_) (h14.trans (by rw [hU2]; norm_num))
    congr 1
    ring

theorem grid_fix {x : ℝ} (k e : ℤ) (h : x = k * 2 ^ e) (he : ulpExp x ≤ e) : nearest.rnd x = x := by
  obtain ⟨n, hn⟩ := Int.eq_ofNat_of_zero_le (sub_nonneg.mpr he)
  refine nearest_fix x (k * 2 ^ n) ?_
  have h2 := pow_split (ulpExp x) n
  rw [show ulpExp x + (n : ℤ) = e by omega] at h2
  conv_lhs => rw [h, h2]
  push_cast
  ring

theorem ulp_small {x : ℝ} (h : |x| < 256) : ulpExp x ≤ -45 := by
  unfold ulpExp
  split_ifs with h0
  · norm_num
  · refine max_le ?_ (by norm_num)
    have hx : 0 < |x| := abs_pos.mpr h0
    have : Int.log 2 |x| < 8 := by
      rw [← Int.lt_zpow_iff_log_lt (by norm_num) hx]
      norm_num
      exact h
    omega

theorem ulp_large {x : ℝ} (h : 180 ≤ |x|) : -45 ≤ ulpExp x := by
  unfold ulpExp
  have h0 : x ≠ 0 := by rintro rfl; norm_num at h
  rw [if_neg h0]
  have : (7 : ℤ) ≤ Int.log 2 |x| := by
    rw [← Int.zpow_le_iff_le_log (by norm_num) (by linarith)]
    norm_num
    linarith
  exact le_max_of_le_left (by omega)

/-- A `double` of at least 180 is a multiple of `2⁻⁴⁵`, and so is its sum with a whole number. -/
theorem shifted {x : ℝ} (hx : nearest.rnd x = x) (h : 180 ≤ |x|) (n : ℤ) (hn : |x + n| < 256) : nearest.rnd (x + n) = x + n := by
  have hl := ulp_large h
  obtain ⟨m, hm⟩ := Int.eq_ofNat_of_zero_le (sub_nonneg.mpr hl)
  have h2 := pow_split (-45) m
  rw [show (-45 : ℤ) + (m : ℤ) = ulpExp x by omega] at h2
  have hx' : x = (round (x / 2 ^ ulpExp x) : ℤ) * (2 : ℝ) ^ ulpExp x := hx.symm
  generalize round (x / 2 ^ ulpExp x) = r at hx'
  rw [h2] at hx'
  refine grid_fix (r * 2 ^ m + n * 2 ^ 45) (-45) ?_ (ulp_small hn)
  have h45 : (35184372088832 : ℝ) * (2 : ℝ) ^ (-45 : ℤ) = 1 := by norm_num [zpow_neg]
  rw [hx']
  push_cast
  rw [add_mul, mul_assoc (n : ℝ), h45, mul_one, mul_assoc]

/-- **C128.** With rounding to nearest the normalisation of a longitude makes no error: for every `double` from -540 to 540 the result
is the one of the real formula, in the documented range. -/
theorem C128_normalize {lon : ℝ} (hd : nearest.rnd lon = lon) (h1 : -540 < lon) (h2 : lon ≤ 540) :
    normalizeF nearest lon = normalizeLongitude lon ∧ ValidLon (normalizeF nearest lon) := by
  have key : normalizeF nearest lon = normalizeLongitude lon := by
    unfold normalizeF normalizeLongitude
    split_ifs with c1 c2
    · have := shifted hd (by rw [abs_of_pos (by linarith)]; linarith) (-360) (by
        push_cast
        rw [abs_lt]
        constructor <;> linarith)
      push_cast at this
      rw [sub_eq_add_neg]
      exact this
    · have := shifted hd (by rw [abs_of_neg (by linarith)]; linarith) 360 (by
        push_cast
        rw [abs_lt]
        constructor <;> linarith)
      push_cast at this
      exact this
    · rfl
  exact ⟨key, by rw [key]; exact (C03_normalize lon).2.mpr ⟨h1, h2⟩⟩

example : nearest.rnd 181 = 181 ∧ (-540 : ℝ) < 181 ∧ (181 : ℝ) ≤ 540 := by
  refine ⟨grid_fix (181 * 2 ^ 45) (-45) (by norm_num [zpow_neg]) (ulp_small (by norm_num)), by norm_num, by norm_num⟩

/-- **C128** is about real arithmetic: rounding to the nearest `double`, the cosine rounded to the nearest `double`, a binding point
at 60 degrees north and on the antimeridian, a place to the east of it and a point to the west of it. -/
example : ∃ (R : Rounding) (K : Cosine) (bind : GeoPoint) (q : XYPoint) (p : GeoPoint), R = nearest ∧ K = nearestCosine ∧ Habitable bind ∧
    |q.x| ≤ 10000 ∧ |q.y| ≤ 10000 ∧ ValidLon bind.longitude ∧ ValidLon p.longitude ∧ Close 4.5 p bind ∧ bind.longitude = 180 ∧ q.x = 5000 ∧
    p.longitude = -179 := by
  refine ⟨nearest, nearestCosine, ⟨60, 180⟩, ⟨5000, -3000⟩, ⟨60.5, -179⟩, rfl, rfl, ⟨?_, ?_, ?_⟩, ?_, ?_, ?_, ?_, ⟨?_, ?_⟩, rfl, rfl, rfl⟩
  · norm_num
  · rw [show (60 : ℝ) * Real.pi / 180 = Real.pi / 3 by ring, Real.cos_pi_div_three]; norm_num
  · norm_num
  · norm_num
  · norm_num
  · constructor <;> norm_num
  · constructor <;> norm_num
  · norm_num
  · unfold normalizeLongitude; norm_num

end Verif.Fp
