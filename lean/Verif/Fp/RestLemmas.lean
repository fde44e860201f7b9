import Verif.Fp.QuatProps
import Verif.Fusion.RestProps

/-! # Rounding errors of the accelerometer correction -/

namespace Verif.Fp

open Verif Verif.Pedo Verif.Fusion

variable (R : Rounding)

/-! ## Vectors as quaternions -/

/-- A vector as a quaternion of Mathlib. -/
noncomputable def vH (v : Vector3d) : Quaternion ℝ := toH (Quat.ofVec v)

theorem vH_norm (v : Vector3d) : ‖vH v‖ = magnitude v := norm_vec v

theorem magnitudeF_eq (v : Vector3d) : magnitudeF R v = normF R (Quat.ofVec v) := by
  unfold magnitudeF normF Quat.ofVec
  dsimp only
  rw [zero_mul, R.zero, zero_add, R.idem]

theorem vnormalizedF_eq (v : Vector3d) : Quat.ofVec (vnormalizedF R v) = normalizedF R (Quat.ofVec v) := by
  unfold vnormalizedF normalizedF
  rw [magnitudeF_eq]
  split_ifs with h
  · have h0 : normF R (Quat.ofVec v) ≠ 0 := by
      intro h0; rw [h0, abs_zero] at h; exact absurd h (not_lt.mpr epsilon_pos.le)
    have hw : R.rnd ((Quat.ofVec v).w ÷ normF R (Quat.ofVec v)) = 0 := by
      rw [divide_eq h0]
      unfold Quat.ofVec
      simp only [zero_div, R.zero]
    rw [hw]
    rfl
  · rfl

/-- The rounded direction of a vector. -/
theorem vnormalized_err (v : Vector3d) (h : 2 * EPSILON ≤ magnitude v) : ‖vH (vnormalizedF R v) - vH (direction v)‖ ≤ 6 * u := by
  unfold vH
  rw [vnormalizedF_eq]
  have hn : ‖toH (Quat.ofVec v)‖ = magnitude v := norm_vec v
  have e : toH (Quat.ofVec (direction v)) = dir (toH (Quat.ofVec v)) := by
    unfold dir
    rw [hn]
    apply QuaternionAlgebra.ext <;> simp only [Quaternion.re_smul, Quaternion.imI_smul, Quaternion.imJ_smul, Quaternion.imK_smul] <;>
      (simp only [toH, direction, Quat.ofVec, smul_eq_mul]; ring)
  rw [e]
  exact normalized_err R _ (by rw [hn]; exact h)

/-- The rounded cross product. -/
theorem cross_err (a b : Vector3d) : ‖vH (crossF R a b) - vH (cross a b)‖ ≤ 2 * (2.1 * u * (‖vH a‖ * ‖vH b‖) + 4 * tiny) := by
  have hu := u_pos
  have ht := tiny_pos
  have comp : ∀ p q P : ℝ, |p| + |q| ≤ P → |R.rnd (R.rnd p - R.rnd q) - (p - q)| ≤ 2.1 * u * P + 4 * tiny := by
    intro p q P hP
    have e1 := rnd_exact R |p| p le_rfl
    have e2 := rnd_exact R |q| q le_rfl
    have e3 : |(R.rnd p - R.rnd q) - (p - q)| ≤ 1.01 * u * (|p| + |q|) + 2 * tiny := by
      have : (R.rnd p - R.rnd q) - (p - q) = (R.rnd p - p) + -(R.rnd q - q) := by ring
      rw [this]
      have := abs_add_le (R.rnd p - p) (-(R.rnd q - q))
      rw [abs_neg] at this
      linarith
    have e4 := rnd_step R _ _ _ _ _ (by norm_num) (by norm_num) (by norm_num) (abs_sub _ _) e3
    have h0 : 0 ≤ |p| + |q| := by positivity
    have := mul_le_mul_of_nonneg_left hP (show 0 ≤ 2.1 * u by positivity)
    have := weaken (k' := 2.1) (b' := 4) h0 (by norm_num) (by norm_num) e4
    linarith
  have ha := normSq_sqrt (Quat.ofVec a)
  have hb := normSq_sqrt (Quat.ofVec b)
  have pb : ∀ a1 a2 b1 b2 : ℝ, a1 ^ 2 + a2 ^ 2 ≤ a.x ^ 2 + a.y ^ 2 + a.z ^ 2 → b1 ^ 2 + b2 ^ 2 ≤ b.x ^ 2 + b.y ^ 2 + b.z ^ 2 →
      |a1 * b2| + |a2 * b1| ≤ ‖vH a‖ * ‖vH b‖ := by
    intro a1 a2 b1 b2 h1 h2
    have h := prod4 a1 a2 0 0 b2 b1 0 0
    simp only [mul_zero, abs_zero, add_zero] at h
    refine h.trans ?_
    unfold vH
    rw [← ha, ← hb]
    apply mul_le_mul _ _ (Real.sqrt_nonneg _) (Real.sqrt_nonneg _)
    · apply Real.sqrt_le_sqrt
      unfold Quat.ofVec
      dsimp only
      linarith
    · apply Real.sqrt_le_sqrt
      unfold Quat.ofVec
      dsimp only
      linarith
  have nx := sq_nonneg a.x
  have ny := sq_nonneg a.y
  have nz := sq_nonneg a.z
  have mx := sq_nonneg b.x
  have my := sq_nonneg b.y
  have mz := sq_nonneg b.z
  apply norm_le
  · positivity
  · show |(0 : ℝ) - 0| ≤ _
    rw [sub_self, abs_zero]
    positivity
  · exact comp _ _ _ (pb _ _ _ _ (by linarith) (by linarith))
  · exact comp _ _ _ (pb _ _ _ _ (by linarith) (by linarith))
  · exact comp _ _ _ (pb _ _ _ _ (by linarith) (by linarith))

/-- The exact cross product of perturbed vectors. -/
theorem cross_pert (a b a' b' : Vector3d) :
    ‖vH (cross a' b') - vH (cross a b)‖ ≤ ‖vH a' - vH a‖ * ‖vH b'‖ + ‖vH a‖ * ‖vH b' - vH b‖ := by
  have e : ∀ a b : Vector3d, vH a * vH b = ⟨-(dot a b), (cross a b).x, (cross a b).y, (cross a b).z⟩ := by
    intro a b
    apply QuaternionAlgebra.ext <;> simp only [Quaternion.re_mul, Quaternion.imI_mul, Quaternion.imJ_mul, Quaternion.imK_mul] <;>
      (simp only [vH, toH, Quat.ofVec, dot, cross]; ring)
  have h1 : ‖vH a' * vH b' - vH a * vH b‖ ≤ ‖vH a' - vH a‖ * ‖vH b'‖ + ‖vH a‖ * ‖vH b' - vH b‖ := by
    have : vH a' * vH b' - vH a * vH b = (vH a' - vH a) * vH b' + vH a * (vH b' - vH b) := by noncomm_ring
    rw [this]
    refine (norm_add_le _ _).trans ?_
    rw [norm_mul, norm_mul]
  refine le_trans ?_ h1
  rw [e, e]
  apply le_of_sq_le_sq _ (norm_nonneg _)
  rw [sq, sq, ← Quaternion.normSq_eq_norm_mul_self, ← Quaternion.normSq_eq_norm_mul_self, Quaternion.normSq_def', Quaternion.normSq_def']
  simp only [Quaternion.re_sub, Quaternion.imI_sub, Quaternion.imJ_sub, Quaternion.imK_sub]
  show ((0 : ℝ) - 0) ^ 2 + ((cross a' b').x - (cross a b).x) ^ 2 + ((cross a' b').y - (cross a b).y) ^ 2
    + ((cross a' b').z - (cross a b).z) ^ 2 ≤ (-dot a' b' - -dot a b) ^ 2 + ((cross a' b').x - (cross a b).x) ^ 2
    + ((cross a' b').y - (cross a b).y) ^ 2 + ((cross a' b').z - (cross a b).z) ^ 2
  have := sq_nonneg (-dot a' b' - -dot a b)
  linarith

/-! ## The held vertical -/

theorem mulF_err (q r : Quat) : ‖toH (mulF R q r) - toH q * toH r‖ ≤ 2 * (5 * u * (‖toH q‖ * ‖toH r‖) + 8 * tiny) := by
  obtain ⟨m1, m2, m3, m4⟩ := mul_err R q r
  have hu := u_pos
  have ht := tiny_pos
  rw [← toH_mul]
  exact norm_le _ _ (by positivity) m1 m2 m3 m4

theorem toVec_norm (q : Quat) (v : Vector3d) : ‖vH q.toVec - vH v‖ ≤ ‖toH q - vH v‖ := by
  apply le_of_sq_le_sq _ (norm_nonneg _)
  rw [sq, sq, ← Quaternion.normSq_eq_norm_mul_self, ← Quaternion.normSq_eq_norm_mul_self, Quaternion.normSq_def', Quaternion.normSq_def']
  simp only [Quaternion.re_sub, Quaternion.imI_sub, Quaternion.imJ_sub, Quaternion.imK_sub]
  show ((0 : ℝ) - 0) ^ 2 + (q.x - v.x) ^ 2 + (q.y - v.y) ^ 2 + (q.z - v.z) ^ 2 ≤ (q.w - 0) ^ 2 + (q.x - v.x) ^ 2 + (q.y - v.y) ^ 2
    + (q.z - v.z) ^ 2
  have := sq_nonneg (q.w - 0)
  linarith

theorem device_mul (q : Quat) (h : q.normSq = 1) (x : Vector3d) :
    vH (toDevice q x) = star (toH q) * vH x * toH q := by
  rw [toDevice_conj]
  have hc : q.conj.normSq = 1 := by rw [normSq_conj, h]
  unfold vH
  rw [world_mul q.conj hc, toH_conj, star_star]

theorem conj_norm (q : Quat) : ‖toH q.conj‖ = ‖toH q‖ := by rw [toH_conj, norm_star]

/-- The computed vertical against the one of the normalised orientation. -/
theorem grav_err (q : Quat) (h : |‖toH q‖ - 1| ≤ 6 * u) : ‖vH (gravF R q) - vH (toDevice q.normalized vertical)‖ ≤ 33 * u := by
  have hu := u_pos
  have hus := u_small
  have ht := tiny_pos
  have htu := tiny_u
  have hN1 : ‖toH q‖ ≤ 1 + 6 * u := by have := (abs_le.mp h).2; linarith
  have hN2 : 1 - 6 * u ≤ ‖toH q‖ := by have := (abs_le.mp h).1; linarith
  have hh : 1 / 2 ≤ ‖toH q‖ := by linarith
  unfold gravF
  refine (toVec_norm _ _).trans ?_
  have e1 := mulF_err R q.conj ⟨0, 0, 0, 1⟩
  have hk : ‖toH ⟨0, 0, 0, 1⟩‖ = 1 := by
    rw [norm_toH]; unfold Quat.normSq; norm_num
  rw [hk, mul_one, conj_norm] at e1
  generalize mulF R q.conj ⟨0, 0, 0, 1⟩ = p at *
  have e2 := mulF_err R p q
  have hp : ‖toH p‖ ≤ 1.01 := by
    have := norm_le_norm_add_norm_sub' (toH p) (toH q.conj * toH ⟨0, 0, 0, 1⟩)
    rw [norm_mul, hk, conj_norm] at this
    have : u * ‖toH q‖ ≤ u * (1 + 6 * u) := mul_le_mul_of_nonneg_left hN1 hu.le
    have : u * u ≤ u * (1 / 10 ^ 15) := mul_le_mul_of_nonneg_left hus hu.le
    linarith
  have hq1 : ‖toH q‖ ≤ 1.01 := by linarith
  rw [device_mul _ (normalized_unit q hh), normalized_eq q (by linarith [eps_small])]
  have hv : vH vertical = toH ⟨0, 0, 0, 1⟩ := rfl
  rw [hv]
  rw [toH_conj] at e1
  -- the exact products of the stored and of the normalised quaternion
  have e3 : ‖star (toH q) * toH ⟨0, 0, 0, 1⟩ * toH q - star (dir (toH q)) * toH ⟨0, 0, 0, 1⟩ * dir (toH q)‖ ≤ 12.1 * u := by
    have nd := dir_near (toH q) (by linarith)
    have n1 := norm_dir (toH q) (by linarith)
    have e : star (toH q) * toH ⟨0, 0, 0, 1⟩ * toH q - star (dir (toH q)) * toH ⟨0, 0, 0, 1⟩ * dir (toH q) =
        star (toH q - dir (toH q)) * toH ⟨0, 0, 0, 1⟩ * toH q + star (dir (toH q)) * toH ⟨0, 0, 0, 1⟩ * (toH q - dir (toH q)) := by
      rw [star_sub]; noncomm_ring
    rw [e]
    refine (norm_add_le _ _).trans ?_
    rw [norm_mul, norm_mul, norm_mul, norm_mul, norm_star, norm_star, hk, n1, norm_sub_rev, nd]
    have : |‖toH q‖ - 1| * ‖toH q‖ ≤ (6 * u) * 1.01 := mul_le_mul h hq1 (norm_nonneg _) (by positivity)
    linarith
  have e4 : ‖toH p * toH q - star (toH q) * toH ⟨0, 0, 0, 1⟩ * toH q‖ ≤ 10.4 * u := by
    rw [← sub_mul, norm_mul]
    have a1 : u * ‖toH q‖ ≤ u * 1.01 := mul_le_mul_of_nonneg_left hq1 hu.le
    have a2 : ‖toH p - star (toH q) * toH ⟨0, 0, 0, 1⟩‖ ≤ 10.2 * u := by linarith
    calc _ ≤ (10.2 * u) * 1.01 := mul_le_mul a2 hq1 (norm_nonneg _) (by positivity)
      _ ≤ _ := by linarith
  have e5 : ‖toH (mulF R p q) - toH p * toH q‖ ≤ 10.3 * u := by
    have a1 : ‖toH p‖ * ‖toH q‖ ≤ 1.01 * 1.01 := mul_le_mul hp hq1 (norm_nonneg _) (by norm_num)
    have a2 : u * (‖toH p‖ * ‖toH q‖) ≤ u * (1.01 * 1.01) := mul_le_mul_of_nonneg_left a1 hu.le
    linarith
  have t1 := norm_sub_le_norm_sub_add_norm_sub (toH (mulF R p q)) (toH p * toH q)
    (star (dir (toH q)) * toH ⟨0, 0, 0, 1⟩ * dir (toH q))
  have t2 := norm_sub_le_norm_sub_add_norm_sub (toH p * toH q) (star (toH q) * toH ⟨0, 0, 0, 1⟩ * toH q)
    (star (dir (toH q)) * toH ⟨0, 0, 0, 1⟩ * dir (toH q))
  linarith

/-! ## The rotation vector of the accelerometer -/

theorem vscaleF_err (k : ℝ) (v : Vector3d) : ‖vH (vscaleF R k v) - vH (vscale k v)‖ ≤ 2 * (1.01 * u * (|k| * ‖vH v‖) + tiny) := by
  have hu := u_pos
  have ht := tiny_pos
  obtain ⟨-, c2, c3, c4⟩ := comp_le (Quat.ofVec v)
  have key : ∀ x : ℝ, |x| ≤ ‖vH v‖ → |R.rnd (x * k) - x * k| ≤ 1.01 * u * (|k| * ‖vH v‖) + tiny := by
    intro x hx
    apply rnd_exact R
    rw [abs_mul, mul_comm]
    exact mul_le_mul_of_nonneg_left hx (abs_nonneg k)
  apply norm_le
  · positivity
  · show |(0 : ℝ) - 0| ≤ _
    rw [sub_self, abs_zero]
    positivity
  · exact key _ c2
  · exact key _ c3
  · exact key _ c4

theorem vscale_pert (k : ℝ) (v v' : Vector3d) : ‖vH (vscale k v') - vH (vscale k v)‖ = |k| * ‖vH v' - vH v‖ := by
  have : vH (vscale k v') - vH (vscale k v) = k • (vH v' - vH v) := by
    apply QuaternionAlgebra.ext <;>
      simp only [Quaternion.re_smul, Quaternion.imI_smul, Quaternion.imJ_smul, Quaternion.imK_smul,
        Quaternion.re_sub, Quaternion.imI_sub, Quaternion.imJ_sub, Quaternion.imK_sub] <;>
      (simp only [vH, toH, vscale, Quat.ofVec, smul_eq_mul]; ring)
  rw [this, norm_smul, Real.norm_eq_abs]

theorem rot_err (q : Quat) (h : |‖toH q‖ - 1| ≤ 6 * u) (k : ℝ) (hk : 0 ≤ k) (hk1 : k ≤ 1) (a : Vector3d) (ha : 2 * EPSILON ≤ magnitude a) :
    ‖vH (vscaleF R k (crossF R (vnormalizedF R a) (gravF R q))) -
      vH (vscale k (cross (direction a) (toDevice q.normalized vertical)))‖ ≤ 47 * u := by
  have hu := u_pos
  have hus := u_small
  have ht := tiny_pos
  have htu := tiny_u
  have hh : 1 / 2 ≤ ‖toH q‖ := by have := (abs_le.mp h).1; linarith
  have d1 := vnormalized_err R a ha
  have d2 := grav_err R q h
  have na : ‖vH (direction a)‖ = 1 := by
    have hE := epsilon_pos
    have := direction_unit a (by linarith)
    rw [vH_norm]
    rw [← magnitude_sq] at this
    have h0 := magnitude_nonneg (direction a)
    exact (sq_eq_sq₀ h0 zero_le_one).mp (by rw [this, one_pow])
  have ng : ‖vH (toDevice q.normalized vertical)‖ = 1 := by
    have := up_unit _ (normalized_unit q hh)
    rw [vH_norm]
    rw [← magnitude_sq] at this
    have h0 := magnitude_nonneg (toDevice q.normalized vertical)
    exact (sq_eq_sq₀ h0 zero_le_one).mp (by rw [this, one_pow])
  generalize vnormalizedF R a = a' at *
  generalize gravF R q = g' at *
  generalize direction a = a at *
  generalize toDevice q.normalized vertical = g at *
  have na' : ‖vH a'‖ ≤ 1.01 := by
    have := norm_le_norm_add_norm_sub' (vH a') (vH a); linarith
  have ng' : ‖vH g'‖ ≤ 1.01 := by
    have := norm_le_norm_add_norm_sub' (vH g') (vH g); linarith
  have c1 := cross_err R a' g'
  have c2 := cross_pert a g a' g'
  have p1 : ‖vH a'‖ * ‖vH g'‖ ≤ 1.01 * 1.01 := mul_le_mul na' ng' (norm_nonneg _) (by norm_num)
  have p2 : u * (‖vH a'‖ * ‖vH g'‖) ≤ u * (1.01 * 1.01) := mul_le_mul_of_nonneg_left p1 hu.le
  have p3 : ‖vH a' - vH a‖ * ‖vH g'‖ ≤ (6 * u) * 1.01 := mul_le_mul d1 ng' (norm_nonneg _) (by positivity)
  rw [na, one_mul] at c2
  have c3 := norm_sub_le_norm_sub_add_norm_sub (vH (crossF R a' g')) (vH (cross a' g')) (vH (cross a g))
  have c4 : ‖vH (crossF R a' g') - vH (cross a g)‖ ≤ 43.7 * u := by linarith
  have nc : ‖vH (cross a g)‖ ≤ 1.01 := by
    have := cross_pert ⟨0, 0, 0⟩ g a g
    have z : vH (⟨0, 0, 0⟩ : Vector3d) = 0 := by
      apply QuaternionAlgebra.ext <;> rfl
    have zc : cross ⟨0, 0, 0⟩ g = ⟨0, 0, 0⟩ := by unfold cross; simp
    rw [zc, z, sub_self, sub_zero, sub_zero, norm_zero, mul_zero, add_zero, na, ng] at this
    linarith
  have nc' : ‖vH (crossF R a' g')‖ ≤ 1.02 := by
    have := norm_le_norm_add_norm_sub' (vH (crossF R a' g')) (vH (cross a g)); linarith
  have s1 := vscaleF_err R k (crossF R a' g')
  have s2 := vscale_pert k (cross a g) (crossF R a' g')
  rw [abs_of_nonneg hk] at s1 s2
  have s3 : k * ‖vH (crossF R a' g') - vH (cross a g)‖ ≤ 1 * (43.7 * u) := mul_le_mul hk1 c4 (norm_nonneg _) (by norm_num)
  have s4 : k * ‖vH (crossF R a' g')‖ ≤ 1 * 1.02 := mul_le_mul hk1 nc' (norm_nonneg _) (by norm_num)
  have s5 : u * (k * ‖vH (crossF R a' g')‖) ≤ u * (1 * 1.02) := mul_le_mul_of_nonneg_left s4 hu.le
  have s6 := norm_sub_le_norm_sub_add_norm_sub (vH (vscaleF R k (crossF R a' g'))) (vH (vscale k (crossF R a' g')))
    (vH (vscale k (cross a g)))
  linarith

/-- The effect of an absolute error of the rotation vector. -/
theorem turn_abs (v v' : Vector3d) (e : ℝ) (h : ‖vH v' - vH v‖ ≤ e) : ‖dir (turn v) - dir (turn v')‖ ≤ e := by
  have h1 := one_le_turn v
  have hd := dir_sub (turn v) (turn v') (by linarith) (by linarith [one_le_turn v'])
  have hs : turn v' - turn v = (2 : ℝ)⁻¹ • (vH v' - vH v) := by
    apply QuaternionAlgebra.ext <;>
      simp only [Quaternion.re_smul, Quaternion.imI_smul, Quaternion.imJ_smul, Quaternion.imK_smul,
        Quaternion.re_sub, Quaternion.imI_sub, Quaternion.imJ_sub, Quaternion.imK_sub] <;>
      (simp only [vH, toH, turn, Quat.ofVec, smul_eq_mul]; ring)
  have hn : ‖turn v - turn v'‖ = ‖vH v' - vH v‖ / 2 := by
    rw [norm_sub_rev, hs, norm_smul, norm_inv, Real.norm_eq_abs, abs_of_pos (by norm_num : (0 : ℝ) < 2)]; ring
  rw [hn] at hd
  refine hd.trans ?_
  rw [div_le_iff₀ (by linarith)]
  have h0 := norm_nonneg (vH v' - vH v)
  have : e * 1 ≤ e * ‖turn v‖ := mul_le_mul_of_nonneg_left h1 (by linarith)
  linarith

/-! ## The angle of the held vertical -/

/-- Two orientations that are near hold nearly the same vertical. -/
theorem up_near (p q : Quat) (hp : p.normSq = 1) (hq : q.normSq = 1) :
    angleBetween (toDevice p vertical) (toDevice q vertical) ≤ 3.2 * ‖toH p - toH q‖ := by
  have hw := world_apart p.conj q.conj (by rw [normSq_conj, hp]) (by rw [normSq_conj, hq]) vertical
  rw [← toDevice_conj, ← toDevice_conj, toH_conj, toH_conj, ← star_sub, norm_star] at hw
  have hv : magnitude vertical = 1 := by unfold magnitude vertical; norm_num
  rw [hv, mul_one] at hw
  have ha := up_unit p hp
  have hb := up_unit q hq
  generalize toDevice p vertical = a at *
  generalize toDevice q vertical = b at *
  have hc := cos_angle a b ha hb
  have h0 := angle_nonneg a b
  have h1 := angle_le_pi a b
  generalize angleBetween a b = θ at *
  have hs : Real.sin (θ / 2) ^ 2 = (1 - dot a b) / 2 := by
    have := Real.cos_sq (θ / 2)
    have h2 := Real.sin_sq_add_cos_sq (θ / 2)
    rw [show 2 * (θ / 2) = θ by ring, hc] at this
    linarith
  have hm : magnitude (Vec.vsub a b) ^ 2 = 4 * Real.sin (θ / 2) ^ 2 := by
    rw [magnitude_sq, hs]
    have : dot (Vec.vsub a b) (Vec.vsub a b) = dot a a + dot b b - 2 * dot a b := by
      unfold dot Vec.vsub; ring
    rw [this, ha, hb]; ring
  have hsin : 0 ≤ Real.sin (θ / 2) := Real.sin_nonneg_of_nonneg_of_le_pi (by linarith) (by linarith)
  have hms : magnitude (Vec.vsub a b) = 2 * Real.sin (θ / 2) := by
    have h3 := magnitude_nonneg (Vec.vsub a b)
    have : magnitude (Vec.vsub a b) ^ 2 = (2 * Real.sin (θ / 2)) ^ 2 := by rw [hm]; ring
    exact (sq_eq_sq₀ h3 (by linarith)).mp this
  rw [hms] at hw
  have hj := Real.mul_le_sin (show 0 ≤ θ / 2 by linarith) (by linarith)
  have hpi : Real.pi ≤ 3.2 := by have := Real.pi_lt_d2; linarith
  have hpos := Real.pi_pos
  have : θ / 2 ≤ Real.pi / 2 * Real.sin (θ / 2) := by
    have := mul_le_mul_of_nonneg_left hj (show 0 ≤ Real.pi / 2 by linarith)
    have e : Real.pi / 2 * (2 / Real.pi * (θ / 2)) = θ / 2 := by field_simp
    linarith
  have : Real.pi * Real.sin (θ / 2) ≤ 3.2 * Real.sin (θ / 2) := mul_le_mul_of_nonneg_right hpi hsin
  linarith

/-- One rounded change of the orientation against the exact change of the normalised one. -/
theorem step_near (q : Quat) (h : |‖toH q‖ - 1| ≤ 6 * u) (v v' : Vector3d) (k : ℝ) (hv : ‖dir (turn v) - dir (turn v')‖ ≤ k) :
    ‖toH (updateF R q v').normalized - toH (updateQuaternion q.normalized v)‖ ≤ 43 * u + k := by
  have hu := u_pos
  have hus := u_small
  have hh : 1 / 2 ≤ ‖toH q‖ := by have := (abs_le.mp h).1; linarith
  obtain ⟨e1, e2⟩ := update_err R q v' hh
  have hh' : 1 / 2 ≤ ‖toH (updateF R q v')‖ := by have := (abs_le.mp e1).1; linarith
  have n0 := norm_dir (toH q) (by linarith)
  have hnq : toH q.normalized = dir (toH q) := normalized_eq q (by linarith [eps_small])
  rw [update_eq q.normalized v (by rw [hnq, n0]; norm_num), hnq, dir_unit _ n0, normalized_eq _ (by linarith [eps_small])]
  have d := dir_near (toH (updateF R q v')) (by linarith)
  have e3 : ‖dir (toH q) * dir (turn v') - dir (toH q) * dir (turn v)‖ ≤ k := by
    rw [← mul_sub, norm_mul, n0, one_mul, norm_sub_rev]; exact hv
  have t1 := norm_sub_le_norm_sub_add_norm_sub (dir (toH (updateF R q v'))) (toH (updateF R q v')) (dir (toH q) * dir (turn v))
  have t2 := norm_sub_le_norm_sub_add_norm_sub (toH (updateF R q v')) (dir (toH q) * dir (turn v')) (dir (toH q) * dir (turn v))
  linarith

end Verif.Fp
