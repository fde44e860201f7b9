import Verif.Fp.Lemmas

/-! # Rounding errors of one change of the orientation -/

namespace Verif.Fp

open Verif Verif.Pedo Verif.Fusion

/-! ## Directions -/

/-- The quaternion of norm one with the same direction. -/
noncomputable def dir (h : Quaternion ℝ) : Quaternion ℝ := ‖h‖⁻¹ • h

theorem norm_dir (h : Quaternion ℝ) (h0 : 0 < ‖h‖) : ‖dir h‖ = 1 := by
  unfold dir
  rw [norm_smul, norm_inv, norm_norm, inv_mul_cancel₀ h0.ne']

theorem dir_mul (a b : Quaternion ℝ) : dir (a * b) = dir a * dir b := by
  unfold dir
  rw [norm_mul, smul_mul_smul_comm, mul_inv]

theorem dir_unit (h : Quaternion ℝ) (h0 : ‖h‖ = 1) : dir h = h := by
  unfold dir; rw [h0, inv_one, one_smul]

theorem dir_sub (a b : Quaternion ℝ) (ha : 0 < ‖a‖) (hb : 0 < ‖b‖) : ‖dir a - dir b‖ ≤ 2 * ‖a - b‖ / ‖a‖ := by
  have e : dir a - dir b = ‖a‖⁻¹ • (a - b) + (‖a‖⁻¹ - ‖b‖⁻¹) • b := by
    unfold dir
    rw [smul_sub, sub_smul]; abel
  have h1 : ‖‖a‖⁻¹ • (a - b)‖ = ‖a - b‖ / ‖a‖ := by
    rw [norm_smul, norm_inv, norm_norm]; field_simp
  have h2 : ‖(‖a‖⁻¹ - ‖b‖⁻¹) • b‖ ≤ ‖a - b‖ / ‖a‖ := by
    have e2 : ‖a‖⁻¹ - ‖b‖⁻¹ = (‖b‖ - ‖a‖) / (‖a‖ * ‖b‖) := by field_simp
    rw [norm_smul, Real.norm_eq_abs, e2, abs_div, abs_of_pos (mul_pos ha hb)]
    have : |‖b‖ - ‖a‖| / (‖a‖ * ‖b‖) * ‖b‖ = |‖b‖ - ‖a‖| / ‖a‖ := by field_simp
    rw [this]
    apply div_le_div_of_nonneg_right _ ha.le
    rw [norm_sub_rev a b]
    exact abs_norm_sub_norm_le b a
  rw [e]
  refine (norm_add_le _ _).trans ?_
  rw [h1]
  have : 2 * ‖a - b‖ / ‖a‖ = ‖a - b‖ / ‖a‖ + ‖a - b‖ / ‖a‖ := by ring
  linarith

theorem dir_near (a : Quaternion ℝ) (ha : 0 < ‖a‖) : ‖dir a - a‖ = |‖a‖ - 1| := by
  have : dir a - a = (‖a‖⁻¹ - 1) • a := by unfold dir; rw [sub_smul, one_smul]
  rw [this, norm_smul, Real.norm_eq_abs]
  have e : ‖a‖⁻¹ - 1 = (1 - ‖a‖) / ‖a‖ := by field_simp
  rw [e, abs_div, abs_of_pos ha, div_mul_cancel₀ _ ha.ne', abs_sub_comm]

/-! ## The rotation `1 + v / 2` -/

/-- The quaternion that a rotation vector multiplies by, before normalisation. -/
noncomputable def turn (v : Vector3d) : Quaternion ℝ := ⟨1, v.x / 2, v.y / 2, v.z / 2⟩

theorem turn_norm_sq (v : Vector3d) : ‖turn v‖ ^ 2 = 1 + ‖toH (Quat.ofVec v)‖ ^ 2 / 4 := by
  rw [norm_sq_toH, sq, ← Quaternion.normSq_eq_norm_mul_self, Quaternion.normSq_def']
  unfold turn Quat.normSq Quat.ofVec
  dsimp only
  ring

theorem one_le_turn (v : Vector3d) : 1 ≤ ‖turn v‖ := by
  have := turn_norm_sq v
  have h2 := sq_nonneg ‖toH (Quat.ofVec v)‖
  by_contra h
  have h0 := norm_nonneg (turn v)
  have : ‖turn v‖ * ‖turn v‖ < 1 := by
    calc ‖turn v‖ * ‖turn v‖ ≤ ‖turn v‖ * 1 := mul_le_mul_of_nonneg_left (by linarith) h0
      _ < 1 := by linarith
  nlinarith

theorem half_le_turn (v : Vector3d) : ‖toH (Quat.ofVec v)‖ / 2 ≤ ‖turn v‖ := by
  have := turn_norm_sq v
  apply le_of_sq_le_sq _ (norm_nonneg _)
  rw [this]; linarith [sq_nonneg ‖toH (Quat.ofVec v)‖]

/-- The exact sum. -/
theorem sum_eq (q : Quat) (v : Vector3d) : toH (q.add ((q.mul (Quat.ofVec v)).scale 0.5)) = toH q * turn v := by
  apply QuaternionAlgebra.ext <;> simp only [Quaternion.re_mul, Quaternion.imI_mul, Quaternion.imJ_mul, Quaternion.imK_mul] <;>
    (unfold toH turn Quat.add Quat.scale Quat.mul Quat.ofVec; dsimp only; ring)

theorem norm_eq (q : Quat) : Real.sqrt (q.w * q.w + q.x * q.x + q.y * q.y + q.z * q.z) = ‖toH q‖ := by
  rw [norm_toH]; congr 1; unfold Quat.normSq; ring

/-- The exact normalisation. -/
theorem normalized_eq (q : Quat) (h : EPSILON < ‖toH q‖) : toH q.normalized = dir (toH q) := by
  rw [Quat.normalized_div]
  dsimp only
  rw [norm_eq, abs_of_nonneg (norm_nonneg _), if_pos h]
  unfold dir
  apply QuaternionAlgebra.ext <;> simp only [Quaternion.re_smul, Quaternion.imI_smul, Quaternion.imJ_smul, Quaternion.imK_smul] <;>
    (unfold toH; simp only [smul_eq_mul]; ring)

theorem eps_small : EPSILON < 1 / 8 := by rw [epsilon_eq]; linarith [u_small]

/-- The exact change of the orientation. -/
theorem update_eq (q : Quat) (v : Vector3d) (h : 1 / 2 ≤ ‖toH q‖) : toH (updateQuaternion q v) = dir (toH q) * dir (turn v) := by
  unfold updateQuaternion
  rw [normalized_eq, sum_eq, dir_mul]
  rw [sum_eq, norm_mul]
  have := one_le_turn v
  have : ‖toH q‖ * 1 ≤ ‖toH q‖ * ‖turn v‖ := mul_le_mul_of_nonneg_left this (norm_nonneg _)
  linarith [eps_small]

variable (R : Rounding)

/-- One component of the sum, rounded. -/
theorem comp_err (q : ℝ) (m m' P NV : ℝ) (hm : |m' - m| ≤ 5 * u * NV + 8 * tiny) (h1 : NV / 2 ≤ P) (hm0 : |m| ≤ NV)
    (hq : |q + m * 0.5| ≤ P) :
    |R.rnd (q + R.rnd (m' * 0.5)) - (q + m * 0.5)| ≤ 7.1 * u * P + 8 * tiny := by
  have hNV : 0 ≤ NV := (abs_nonneg m).trans hm0
  have e1 : |m' * 0.5 - m * 0.5| ≤ 5 * u * (NV / 2) + 4 * tiny := by
    rw [← sub_mul, abs_mul, show |(0.5 : ℝ)| = 0.5 by norm_num]; linarith
  have e2 := rnd_step R 5 4 (NV / 2) (m * 0.5) (m' * 0.5) (by norm_num) (by norm_num) (by norm_num)
    (by rw [abs_mul, show |(0.5 : ℝ)| = 0.5 by norm_num]; linarith) e1
  have e3 : |(q + R.rnd (m' * 0.5)) - (q + m * 0.5)| ≤ (5 + 1.01) * u * P + (1.01 * 4 + 1) * tiny := by
    have : (q + R.rnd (m' * 0.5)) - (q + m * 0.5) = R.rnd (m' * 0.5) - m * 0.5 := by ring
    rw [this]
    have := mul_le_mul_of_nonneg_left h1 (show 0 ≤ (5 + 1.01) * u by have := u_pos; positivity)
    linarith
  have e4 := rnd_step R _ _ P _ _ (by norm_num) (by norm_num) (by norm_num) hq e3
  exact weaken ((abs_nonneg _).trans hq) (by norm_num) (by norm_num) e4

theorem tiny_u : 100 * tiny ≤ u / 1000 := by
  have h1 := tiny_small
  have h2 := u_small
  have h3 := u_pos
  have : u ^ 20 ≤ u * (1 / 10 ^ 15) := by
    calc u ^ 20 = u * (u * u ^ 18) := by ring
      _ ≤ u * ((1 / 10 ^ 15) * 1) := by
        apply mul_le_mul_of_nonneg_left _ h3.le
        apply mul_le_mul h2 (pow_le_one₀ h3.le (by linarith)) (by positivity) (by positivity)
      _ = _ := by ring
  linarith

theorem tiny_u3 : 100 * tiny ≤ u ^ 3 := by
  have h1 := tiny_small
  have h2 := u_small
  have h3 := u_pos
  have : u ^ 20 ≤ u ^ 3 * (1 / 10 ^ 15) := by
    calc u ^ 20 = u ^ 3 * (u * u ^ 16) := by ring
      _ ≤ u ^ 3 * ((1 / 10 ^ 15) * 1) := by
        apply mul_le_mul_of_nonneg_left _ (by positivity)
        apply mul_le_mul h2 (pow_le_one₀ h3.le (by linarith)) (by positivity) (by positivity)
      _ = _ := by ring
  have : 0 ≤ u ^ 3 := by positivity
  linarith

/-- The rounded sum against the exact one. -/
theorem sum_err (q : Quat) (v : Vector3d) (h : 1 / 2 ≤ ‖toH q‖) :
    ‖toH (addF R q (scaleF R (mulF R q (Quat.ofVec v)) 0.5)) - toH q * turn v‖ ≤ 15 * u * ‖toH q * turn v‖ := by
  have hp : toH (q.add ((q.mul (Quat.ofVec v)).scale 0.5)) = toH q * turn v := sum_eq q v
  obtain ⟨m1, m2, m3, m4⟩ := mul_err R q (Quat.ofVec v)
  obtain ⟨c1, c2, c3, c4⟩ := comp_le (q.add ((q.mul (Quat.ofVec v)).scale 0.5))
  obtain ⟨d1, d2, d3, d4⟩ := comp_le (q.mul (Quat.ofVec v))
  rw [toH_mul, norm_mul] at d1 d2 d3 d4
  rw [hp] at c1 c2 c3 c4
  have hP : ‖toH q‖ * ‖toH (Quat.ofVec v)‖ / 2 ≤ ‖toH q * turn v‖ := by
    rw [norm_mul]
    have := mul_le_mul_of_nonneg_left (half_le_turn v) (norm_nonneg (toH q))
    linarith
  have hP1 : 1 / 2 ≤ ‖toH q * turn v‖ := by
    rw [norm_mul]
    have := mul_le_mul_of_nonneg_left (one_le_turn v) (norm_nonneg (toH q))
    linarith
  generalize ‖toH q * turn v‖ = P at *
  have f1 := comp_err R q.w _ _ P _ m1 hP d1 c1
  have f2 := comp_err R q.x _ _ P _ m2 hP d2 c2
  have f3 := comp_err R q.y _ _ P _ m3 hP d3 c3
  have f4 := comp_err R q.z _ _ P _ m4 hP d4 c4
  have hu := u_pos
  have ht := tiny_pos
  have := norm_le (toH (addF R q (scaleF R (mulF R q (Quat.ofVec v)) 0.5)) - toH q * turn v) (7.1 * u * P + 8 * tiny)
    (by have : 0 ≤ P := by linarith
        positivity)
    (by rw [← hp, Quaternion.re_sub]; exact f1) (by rw [← hp, Quaternion.imI_sub]; exact f2)
    (by rw [← hp, Quaternion.imJ_sub]; exact f3) (by rw [← hp, Quaternion.imK_sub]; exact f4)
  have t := tiny_u
  have : u * (1 / 2) ≤ u * P := mul_le_mul_of_nonneg_left hP1 hu.le
  linarith

/-- The rounded norm. -/
theorem norm_err (p : Quat) (h : u ≤ ‖toH p‖) : |normF R p - ‖toH p‖| ≤ 4 * u * ‖toH p‖ := by
  have hu := u_pos
  have hus := u_small
  have ht := tiny_pos
  have pos : ∀ x : ℝ, |R.rnd (x * x) - x * x| ≤ 1.01 * u * (x * x) + tiny := fun x =>
    rnd_exact R _ _ (abs_of_nonneg (mul_self_nonneg x)).le
  have le : ∀ x : ℝ, |x * x| ≤ x * x := fun x => (abs_of_nonneg (mul_self_nonneg x)).le
  have hs := sum4 R _ _ _ _ _ _ _ _ _ _ _ _ (le p.w) (le p.x) (le p.y) (le p.z) (pos p.w) (pos p.x) (pos p.y) (pos p.z)
  have hN : p.w * p.w + p.x * p.x + p.y * p.y + p.z * p.z = ‖toH p‖ ^ 2 := by
    rw [norm_sq_toH]; unfold Quat.normSq; ring
  rw [hN] at hs
  unfold normF
  generalize R.rnd (R.rnd (R.rnd (R.rnd (p.w * p.w) + R.rnd (p.x * p.x)) + R.rnd (p.y * p.y)) + R.rnd (p.z * p.z)) = S at *
  generalize ‖toH p‖ = N at *
  have hN0 : 0 < N := by linarith
  have hN2 : 100 * tiny ≤ u * N ^ 2 := by
    have h1 := mul_le_mul_of_nonneg_left (pow_le_pow_left₀ hu.le h 2) hu.le
    have h2 := tiny_u3
    have h3 : u * u ^ 2 = u ^ 3 := by ring
    linarith
  have hN1 : 100 * tiny ≤ u * N := by
    have h1 := mul_le_mul_of_nonneg_left h hu.le
    have h2 := tiny_u3
    have h3 : u ^ 3 ≤ u * u := by
      calc u ^ 3 = u * u * u := by ring
        _ ≤ u * u * 1 := mul_le_mul_of_nonneg_left (by linarith) (by positivity)
        _ = _ := by ring
    linarith
  have hS : |S - N ^ 2| ≤ 5.1 * u * N ^ 2 := by linarith
  have hS0 : 0 ≤ S := by
    have := (abs_le.mp hS).1
    have : u * N ^ 2 ≤ (1 / 10 ^ 15) * N ^ 2 := mul_le_mul_of_nonneg_right hus (by positivity)
    have : 0 < N ^ 2 := by positivity
    linarith
  have hsq : |Real.sqrt S - N| ≤ 2.6 * u * N := by
    have hr0 := Real.sqrt_nonneg S
    have hr := Real.sq_sqrt hS0
    generalize Real.sqrt S = r at *
    have e : S - N ^ 2 = (r - N) * (r + N) := by rw [← hr]; ring
    rw [e, abs_mul, abs_of_pos (by linarith : 0 < r + N)] at hS
    have hd0 := abs_nonneg (r - N)
    have h1 : |r - N| * N ≤ |r - N| * (r + N) := mul_le_mul_of_nonneg_left (by linarith) hd0
    have h2 : |r - N| ≤ 5.1 * u * N := by
      have : |r - N| * N ≤ (5.1 * u * N) * N := by linarith
      exact le_of_mul_le_mul_right this hN0
    have h3 : 1.99 * N ≤ r + N := by
      have := (abs_le.mp h2).1
      have : u * N ≤ (1 / 10 ^ 15) * N := mul_le_mul_of_nonneg_right hus hN0.le
      linarith
    have h4 : |r - N| * (1.99 * N) ≤ |r - N| * (r + N) := mul_le_mul_of_nonneg_left h3 hd0
    have : |r - N| * N ≤ (2.6 * u * N) * N := by
      have : 0 ≤ u * N ^ 2 := by positivity
      linarith
    exact le_of_mul_le_mul_right this hN0
  have e := rnd_step R 2.6 0 N N (Real.sqrt S) (by norm_num) (by norm_num) le_rfl (abs_of_pos hN0).le (by linarith)
  linarith

/-- A rounded quotient. -/
theorem div_err (x n N : ℝ) (hN0 : 0 < N) (hn : |n - N| ≤ 4 * u * N) : |R.rnd (x / n) - x / N| ≤ 5.1 * u * |x / N| + tiny := by
  have hu := u_pos
  have hus := u_small
  have ht := tiny_pos
  have hn0 : 0.99 * N ≤ n := by
    have := (abs_le.mp hn).1
    have : u * N ≤ (1 / 10 ^ 15) * N := mul_le_mul_of_nonneg_right hus hN0.le
    linarith
  have hnp : 0 < n := by linarith
  -- the quotient of the two norms
  have hq : |N / n - 1| ≤ 4.01 * u := by
    have : N / n - 1 = (N - n) / n := by field_simp
    rw [this, abs_div, abs_of_pos hnp, div_le_iff₀ hnp, abs_sub_comm]
    have h1 : (1 - 4 * u) * N ≤ n := by have := (abs_le.mp hn).1; linarith
    have h2 : 4.01 * u * ((1 - 4 * u) * N) ≤ 4.01 * u * n := mul_le_mul_of_nonneg_left h1 (by positivity)
    have h3 : u * N * u ≤ u * N * (1 / 10 ^ 15) := mul_le_mul_of_nonneg_left hus (by positivity)
    have h4 : 0 ≤ u * N := by positivity
    linarith
  have e : x / n = x / N * (N / n) := by field_simp
  have h1 : |x / n - x / N| ≤ 4.01 * u * |x / N| + 0 * tiny := by
    have : x / n - x / N = x / N * (N / n - 1) := by rw [e]; ring
    rw [this, abs_mul]
    have := mul_le_mul_of_nonneg_left hq (abs_nonneg (x / N))
    linarith
  have := rnd_step R 4.01 0 |x / N| (x / N) (x / n) (by norm_num) (by norm_num) le_rfl le_rfl h1
  have : 0 ≤ u * |x / N| := by positivity
  linarith

/-- The rounded normalisation. -/
theorem normalized_err (p : Quat) (h : 2 * EPSILON ≤ ‖toH p‖) : ‖toH (normalizedF R p) - dir (toH p)‖ ≤ 6 * u := by
  have hu := u_pos
  have hus := u_small
  have ht := tiny_pos
  rw [epsilon_eq] at h
  have hn := norm_err R p (by linarith)
  have hbig : EPSILON < |normF R p| := by
    have h1 := (abs_le.mp hn).1
    have h2 : u * ‖toH p‖ ≤ (1 / 10 ^ 15) * ‖toH p‖ := mul_le_mul_of_nonneg_right hus (norm_nonneg _)
    have h3 := le_abs_self (normF R p)
    rw [epsilon_eq]
    linarith
  rw [normalizedF_div]
  rw [if_pos hbig]
  have d := fun x => div_err R x _ _ (show 0 < ‖toH p‖ by linarith) hn
  have hN0 : 0 < ‖toH p‖ := by linarith
  -- the sum of squares of the errors
  have key : ‖toH ⟨R.rnd (p.w / normF R p), R.rnd (p.x / normF R p), R.rnd (p.y / normF R p), R.rnd (p.z / normF R p)⟩
      - dir (toH p)‖ ^ 2 ≤ (6 * u) ^ 2 := by
    rw [sq ‖_‖, ← Quaternion.normSq_eq_norm_mul_self, Quaternion.normSq_def']
    rw [Quaternion.re_sub, Quaternion.imI_sub, Quaternion.imJ_sub, Quaternion.imK_sub]
    unfold dir
    simp only [Quaternion.re_smul, Quaternion.imI_smul, Quaternion.imJ_smul, Quaternion.imK_smul, smul_eq_mul]
    have hsum : (p.w / ‖toH p‖) ^ 2 + (p.x / ‖toH p‖) ^ 2 + (p.y / ‖toH p‖) ^ 2 + (p.z / ‖toH p‖) ^ 2 = 1 := by
      have := norm_sq_toH p
      unfold Quat.normSq at this
      field_simp
      linarith
    generalize ‖toH p‖ = N at *
    generalize normF R p = n at *
    have cv : ∀ x : ℝ, N⁻¹ * x = x / N := fun x => by field_simp
    show (R.rnd (p.w / n) - N⁻¹ * p.w) ^ 2 + (R.rnd (p.x / n) - N⁻¹ * p.x) ^ 2 + (R.rnd (p.y / n) - N⁻¹ * p.y) ^ 2
      + (R.rnd (p.z / n) - N⁻¹ * p.z) ^ 2 ≤ _
    rw [cv, cv, cv, cv]
    have t := tiny_u
    have each : ∀ x : ℝ, |x / N| ≤ 1 → (R.rnd (x / n) - x / N) ^ 2 ≤ (5.1 * u) ^ 2 * (x / N) ^ 2 + u ^ 2 := by
      intro x hx
      have h1 := d x
      have h2 : (R.rnd (x / n) - x / N) ^ 2 ≤ (5.1 * u * |x / N| + tiny) ^ 2 := by
        rw [← sq_abs]
        exact pow_le_pow_left₀ (abs_nonneg _) h1 2
      have h3 : (5.1 * u * |x / N| + tiny) ^ 2 = (5.1 * u) ^ 2 * (x / N) ^ 2 + (2 * (5.1 * u * |x / N|) + tiny) * tiny := by
        rw [← sq_abs (x / N)]; ring
      have h4 : (2 * (5.1 * u * |x / N|) + tiny) * tiny ≤ u * u := by
        have : u * |x / N| ≤ u * 1 := mul_le_mul_of_nonneg_left hx hu.le
        have h5 : 2 * (5.1 * u * |x / N|) + tiny ≤ 11 * u := by linarith
        calc _ ≤ (11 * u) * tiny := mul_le_mul_of_nonneg_right h5 ht.le
          _ = u * (11 * tiny) := by ring
          _ ≤ u * u := mul_le_mul_of_nonneg_left (by linarith) hu.le
      rw [h3] at h2
      linarith
    have b : ∀ x : ℝ, (x / N) ^ 2 ≤ 1 → |x / N| ≤ 1 := fun x hx => by
      rw [← sq_abs] at hx
      exact (sq_le_one_iff₀ (abs_nonneg _)).mp hx
    have n1 := sq_nonneg (p.w / N)
    have n2 := sq_nonneg (p.x / N)
    have n3 := sq_nonneg (p.y / N)
    have n4 := sq_nonneg (p.z / N)
    have e1 := each p.w (b _ (by linarith))
    have e2 := each p.x (b _ (by linarith))
    have e3 := each p.y (b _ (by linarith))
    have e4 := each p.z (b _ (by linarith))
    have hu2 := sq_nonneg u
    have : (5.1 * u) ^ 2 * (p.w / N) ^ 2 + (5.1 * u) ^ 2 * (p.x / N) ^ 2 + (5.1 * u) ^ 2 * (p.y / N) ^ 2 + (5.1 * u) ^ 2 * (p.z / N) ^ 2
        = (5.1 * u) ^ 2 := by
      rw [← mul_add, ← mul_add, ← mul_add, hsum, mul_one]
    linarith
  exact (sq_le_sq₀ (norm_nonneg _) (by linarith)).mp key

/-- The rounded change of the orientation is of norm one up to `6 u`, and near the exact one. -/
theorem update_err (q : Quat) (v : Vector3d) (h : 1 / 2 ≤ ‖toH q‖) :
    |‖toH (updateF R q v)‖ - 1| ≤ 6 * u ∧ ‖toH (updateF R q v) - dir (toH q) * dir (turn v)‖ ≤ 37 * u := by
  have hu := u_pos
  have hus := u_small
  have hs := sum_err R q v h
  unfold updateF
  generalize addF R q (scaleF R (mulF R q (Quat.ofVec v)) 0.5) = p at *
  rw [← dir_mul]
  have hP1 : 1 / 2 ≤ ‖toH q * turn v‖ := by
    rw [norm_mul]
    have := mul_le_mul_of_nonneg_left (one_le_turn v) (norm_nonneg (toH q))
    linarith
  generalize toH q * turn v = e at *
  have hu2 : u * ‖e‖ ≤ (1 / 10 ^ 15) * ‖e‖ := mul_le_mul_of_nonneg_right hus (norm_nonneg _)
  have hp : 1 / 4 ≤ ‖toH p‖ := by
    have h1 := norm_sub_norm_le e (toH p)
    rw [norm_sub_rev] at h1
    linarith
  have hn := normalized_err R p (by linarith [eps_small])
  have hd := norm_dir (toH p) (by linarith)
  refine ⟨?_, ?_⟩
  · rw [← hd]
    exact (abs_norm_sub_norm_le _ _).trans hn
  · have h1 := dir_sub e (toH p) (by linarith) (by linarith)
    rw [norm_sub_rev e] at h1
    have h2 : 2 * ‖toH p - e‖ / ‖e‖ ≤ 30 * u := by
      rw [div_le_iff₀ (by linarith)]; linarith
    have h3 := norm_sub_le_norm_sub_add_norm_sub (toH (normalizedF R p)) (dir (toH p)) (dir e)
    rw [norm_sub_rev (dir (toH p))] at h3
    linarith

end Verif.Fp
