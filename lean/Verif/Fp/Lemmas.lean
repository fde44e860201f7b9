import Verif.Fp.Model
import Verif.Fusion.Spec
import Mathlib.Analysis.Quaternion

/-! # Lemmas on rounding -/

namespace Verif.Fp

open Verif Verif.Pedo Verif.Fusion

theorem u_pos : 0 < u := by unfold u; positivity

theorem u_small : u ≤ 1 / 10 ^ 15 := by unfold u; norm_num

theorem tiny_pos : 0 < tiny := by unfold tiny; positivity

theorem tiny_small : tiny ≤ u ^ 20 := by
  unfold tiny u
  rw [← zpow_natCast, ← zpow_mul]
  exact zpow_le_zpow_right₀ (by norm_num) (by norm_num)

theorem epsilon_eq : EPSILON = 2 * u := by
  unfold EPSILON u
  rw [show (-52 : ℤ) = -53 + 1 by norm_num, zpow_add₀ (by norm_num)]
  ring

variable (R : Rounding)

theorem rnd_step (k b X x x' : ℝ) (hk : 0 ≤ k) (hk9 : k ≤ 9) (hb : 0 ≤ b) (hx : |x| ≤ X)
    (h : |x' - x| ≤ k * u * X + b * tiny) :
    |R.rnd x' - x| ≤ (k + 1.01) * u * X + (1.01 * b + 1) * tiny := by
  have hn := R.near x'
  have hu := u_pos
  have hus := u_small
  have ht := tiny_pos
  have hX : 0 ≤ X := (abs_nonneg x).trans hx
  have h1 : |x'| ≤ X + (k * u * X + b * tiny) := by
    have : |x'| ≤ |x| + |x' - x| := by
      have := abs_add_le x (x' - x)
      rwa [add_sub_cancel] at this
    linarith
  have h2 : |R.rnd x' - x| ≤ |R.rnd x' - x'| + |x' - x| := abs_sub_le _ _ _
  have h3 : u * |x'| ≤ u * (X + (k * u * X + b * tiny)) := mul_le_mul_of_nonneg_left h1 hu.le
  have h4 : u * (k * u * X) ≤ 0.01 * u * X := by
    have : u * k ≤ 0.01 := by
      calc u * k ≤ (1 / 10 ^ 15) * 9 := mul_le_mul hus hk9 hk (by positivity)
        _ ≤ 0.01 := by norm_num
    calc u * (k * u * X) = (u * k) * (u * X) := by ring
      _ ≤ 0.01 * (u * X) := mul_le_mul_of_nonneg_right this (by positivity)
      _ = _ := by ring
  have h5 : u * (b * tiny) ≤ 0.01 * b * tiny := by
    have : u ≤ 0.01 := hus.trans (by norm_num)
    calc u * (b * tiny) ≤ 0.01 * (b * tiny) := mul_le_mul_of_nonneg_right this (by positivity)
      _ = _ := by ring
  linarith

theorem rnd_exact (X x : ℝ) (hx : |x| ≤ X) : |R.rnd x - x| ≤ 1.01 * u * X + tiny := by
  have := rnd_step R 0 0 X x x le_rfl (by norm_num) le_rfl hx (by simp)
  linarith

theorem add_err (x x' y y' X Y k b c : ℝ) (hx : |x' - x| ≤ k * u * X + b * tiny) (hy : |y' - y| ≤ k * u * Y + c * tiny) :
    |(x' + y') - (x + y)| ≤ k * u * (X + Y) + (b + c) * tiny := by
  have : (x' + y') - (x + y) = (x' - x) + (y' - y) := by ring
  rw [this]
  have := abs_add_le (x' - x) (y' - y)
  linarith

theorem weaken {k k' b b' X e : ℝ} (hX : 0 ≤ X) (hk : k ≤ k') (hb : b ≤ b') (h : e ≤ k * u * X + b * tiny) :
    e ≤ k' * u * X + b' * tiny := by
  have h1 : k * (u * X) ≤ k' * (u * X) := mul_le_mul_of_nonneg_right hk (mul_nonneg u_pos.le hX)
  have h2 := mul_le_mul_of_nonneg_right hb tiny_pos.le
  linarith

/-- The sum of four rounded numbers, from left to right. -/
theorem sum4 (a b c d a' b' c' d' A B C D : ℝ) (hA : |a| ≤ A) (hB : |b| ≤ B) (hC : |c| ≤ C) (hD : |d| ≤ D)
    (ha : |a' - a| ≤ 1.01 * u * A + tiny) (hb : |b' - b| ≤ 1.01 * u * B + tiny)
    (hc : |c' - c| ≤ 1.01 * u * C + tiny) (hd : |d' - d| ≤ 1.01 * u * D + tiny) :
    |R.rnd (R.rnd (R.rnd (a' + b') + c') + d') - (a + b + c + d)| ≤ 5 * u * (A + B + C + D) + 8 * tiny := by
  have hA0 := (abs_nonneg a).trans hA
  have hB0 := (abs_nonneg b).trans hB
  have hC0 := (abs_nonneg c).trans hC
  have hD0 := (abs_nonneg d).trans hD
  have ha1 : |a' - a| ≤ 1.01 * u * A + 1 * tiny := by linarith
  have hb1 : |b' - b| ≤ 1.01 * u * B + 1 * tiny := by linarith
  have hc1 : |c' - c| ≤ 1.01 * u * C + 1 * tiny := by linarith
  have hd1 : |d' - d| ≤ 1.01 * u * D + 1 * tiny := by linarith
  have s1 := add_err _ _ _ _ _ _ _ _ _ ha1 hb1
  have s2 := rnd_step R 1.01 (1 + 1) (A + B) (a + b) (a' + b') (by norm_num) (by norm_num) (by norm_num)
    ((abs_add_le _ _).trans (add_le_add hA hB)) s1
  have s3 := add_err _ _ _ _ _ _ _ _ _ s2 (weaken hC0 (by norm_num : (1.01 : ℝ) ≤ 1.01 + 1.01) le_rfl hc1)
  have s4 := rnd_step R _ _ (A + B + C) (a + b + c) _ (by norm_num) (by norm_num) (by norm_num)
    ((abs_add_le _ _).trans (add_le_add ((abs_add_le _ _).trans (add_le_add hA hB)) hC)) s3
  have s5 := add_err _ _ _ _ _ _ _ _ _ s4 (weaken hD0 (by norm_num : (1.01 : ℝ) ≤ 1.01 + 1.01 + 1.01) le_rfl hd1)
  have s6 := rnd_step R _ _ (A + B + C + D) (a + b + c + d) _ (by norm_num) (by norm_num) (by norm_num)
    ((abs_add_le _ _).trans (add_le_add ((abs_add_le _ _).trans (add_le_add ((abs_add_le _ _).trans (add_le_add hA hB)) hC)) hD)) s5
  exact weaken (by linarith) (by norm_num) (by norm_num) s6

/-! ## Quaternions as Mathlib has them -/

/-- The quaternion of Mathlib. -/
noncomputable def toH (q : Quat) : Quaternion ℝ := ⟨q.w, q.x, q.y, q.z⟩

theorem norm_sq_toH (q : Quat) : ‖toH q‖ ^ 2 = q.normSq := by
  rw [sq, ← Quaternion.normSq_eq_norm_mul_self, Quaternion.normSq_def']
  rfl

theorem toH_mul (q r : Quat) : toH (q.mul r) = toH q * toH r := by
  apply QuaternionAlgebra.ext <;> simp only [Quaternion.re_mul, Quaternion.imI_mul, Quaternion.imJ_mul, Quaternion.imK_mul] <;> rfl

theorem toH_add (q r : Quat) : toH (q.add r) = toH q + toH r := by
  apply QuaternionAlgebra.ext <;> simp only [Quaternion.re_add, Quaternion.imI_add, Quaternion.imJ_add, Quaternion.imK_add] <;> rfl

theorem norm_toH (q : Quat) : ‖toH q‖ = Real.sqrt q.normSq := by
  rw [← norm_sq_toH, Real.sqrt_sq (norm_nonneg _)]

/-- Componentwise bounds give a bound of the norm. -/
theorem norm_le (h : Quaternion ℝ) (e : ℝ) (he : 0 ≤ e) (h1 : |h.re| ≤ e) (h2 : |h.imI| ≤ e) (h3 : |h.imJ| ≤ e) (h4 : |h.imK| ≤ e) :
    ‖h‖ ≤ 2 * e := by
  have : ‖h‖ ^ 2 ≤ (2 * e) ^ 2 := by
    rw [sq ‖h‖, ← Quaternion.normSq_eq_norm_mul_self, Quaternion.normSq_def']
    have a1 := sq_le_sq' (by linarith [abs_le.mp h1]) (abs_le.mp h1).2
    have a2 := sq_le_sq' (by linarith [abs_le.mp h2]) (abs_le.mp h2).2
    have a3 := sq_le_sq' (by linarith [abs_le.mp h3]) (abs_le.mp h3).2
    have a4 := sq_le_sq' (by linarith [abs_le.mp h4]) (abs_le.mp h4).2
    linarith
  exact (sq_le_sq₀ (norm_nonneg _) (by linarith)).mp this

/-- Each component is at most the norm. -/
theorem comp_le (q : Quat) : |q.w| ≤ ‖toH q‖ ∧ |q.x| ≤ ‖toH q‖ ∧ |q.y| ≤ ‖toH q‖ ∧ |q.z| ≤ ‖toH q‖ := by
  have h := norm_sq_toH q
  unfold Quat.normSq at h
  have hn := norm_nonneg (toH q)
  refine ⟨?_, ?_, ?_, ?_⟩ <;>
  · apply abs_le_of_sq_le_sq _ hn
    have := sq_nonneg q.w
    have := sq_nonneg q.x
    have := sq_nonneg q.y
    have := sq_nonneg q.z
    linarith

/-- The sum of four products is at most the product of the norms. -/
theorem prod4 (a b c d e f g h : ℝ) :
    |a * e| + |b * f| + |c * g| + |d * h| ≤
      Real.sqrt (a ^ 2 + b ^ 2 + c ^ 2 + d ^ 2) * Real.sqrt (e ^ 2 + f ^ 2 + g ^ 2 + h ^ 2) := by
  rw [← Real.sqrt_mul (by positivity)]
  apply Real.le_sqrt_of_sq_le
  simp only [abs_mul]
  have e1 : a ^ 2 = |a| ^ 2 := (sq_abs a).symm
  have e2 : b ^ 2 = |b| ^ 2 := (sq_abs b).symm
  have e3 : c ^ 2 = |c| ^ 2 := (sq_abs c).symm
  have e4 : d ^ 2 = |d| ^ 2 := (sq_abs d).symm
  have e5 : e ^ 2 = |e| ^ 2 := (sq_abs e).symm
  have e6 : f ^ 2 = |f| ^ 2 := (sq_abs f).symm
  have e7 : g ^ 2 = |g| ^ 2 := (sq_abs g).symm
  have e8 : h ^ 2 = |h| ^ 2 := (sq_abs h).symm
  rw [e1, e2, e3, e4, e5, e6, e7, e8]
  generalize |a| = a; generalize |b| = b; generalize |c| = c; generalize |d| = d
  generalize |e| = e; generalize |f| = f; generalize |g| = g; generalize |h| = h
  linarith [sq_nonneg (a * f - b * e), sq_nonneg (a * g - c * e), sq_nonneg (a * h - d * e), sq_nonneg (b * g - c * f),
    sq_nonneg (b * h - d * f), sq_nonneg (c * h - d * g)]

theorem normSq_sqrt (q : Quat) : Real.sqrt (q.w ^ 2 + q.x ^ 2 + q.y ^ 2 + q.z ^ 2) = ‖toH q‖ := (norm_toH q).symm

/-- The rounding error of a product. -/
theorem mul_err (q r : Quat) :
    |(mulF R q r).w - (q.mul r).w| ≤ 5 * u * (‖toH q‖ * ‖toH r‖) + 8 * tiny ∧
    |(mulF R q r).x - (q.mul r).x| ≤ 5 * u * (‖toH q‖ * ‖toH r‖) + 8 * tiny ∧
    |(mulF R q r).y - (q.mul r).y| ≤ 5 * u * (‖toH q‖ * ‖toH r‖) + 8 * tiny ∧
    |(mulF R q r).z - (q.mul r).z| ≤ 5 * u * (‖toH q‖ * ‖toH r‖) + 8 * tiny := by
  have hu := u_pos
  have pos : ∀ x : ℝ, |R.rnd x - x| ≤ 1.01 * u * |x| + tiny := fun x => rnd_exact R _ x le_rfl
  have neg : ∀ x : ℝ, |-R.rnd x - -x| ≤ 1.01 * u * |x| + tiny := fun x => by
    rw [← neg_sub', abs_neg]; exact pos x
  have an : ∀ x : ℝ, |-x| ≤ |x| := fun x => (abs_neg x).le
  have mono : ∀ S e : ℝ, S ≤ ‖toH q‖ * ‖toH r‖ → e ≤ 5 * u * S + 8 * tiny → e ≤ 5 * u * (‖toH q‖ * ‖toH r‖) + 8 * tiny := by
    intro S e hS he
    have := mul_le_mul_of_nonneg_left hS (show 0 ≤ 5 * u by positivity)
    linarith
  have hq := normSq_sqrt q
  have hr := normSq_sqrt r
  have perm : ∀ a b c d : ℝ, a ^ 2 + b ^ 2 + c ^ 2 + d ^ 2 = r.w ^ 2 + r.x ^ 2 + r.y ^ 2 + r.z ^ 2 →
      |q.w * a| + |q.x * b| + |q.y * c| + |q.z * d| ≤ ‖toH q‖ * ‖toH r‖ := by
    intro a b c d h
    have := prod4 q.w q.x q.y q.z a b c d
    rw [h, hq, hr] at this
    exact this
  refine ⟨?_, ?_, ?_, ?_⟩
  · have := sum4 R _ _ _ _ _ _ _ _ _ _ _ _ le_rfl (an _) (an _) (an _) (pos (q.w * r.w)) (neg (q.x * r.x)) (neg (q.y * r.y))
      (neg (q.z * r.z))
    exact mono _ _ (perm _ _ _ _ (by ring)) this
  · have := sum4 R _ _ _ _ _ _ _ _ _ _ _ _ le_rfl le_rfl le_rfl (an _) (pos (q.w * r.x)) (pos (q.x * r.w)) (pos (q.y * r.z))
      (neg (q.z * r.y))
    exact mono _ _ (perm _ _ _ _ (by ring)) this
  · have := sum4 R _ _ _ _ _ _ _ _ _ _ _ _ le_rfl (an _) le_rfl le_rfl (pos (q.w * r.y)) (neg (q.x * r.z)) (pos (q.y * r.w))
      (pos (q.z * r.x))
    exact mono _ _ (perm _ _ _ _ (by ring)) this
  · have := sum4 R _ _ _ _ _ _ _ _ _ _ _ _ le_rfl le_rfl (an _) le_rfl (pos (q.w * r.z)) (pos (q.x * r.y)) (neg (q.y * r.x))
      (pos (q.z * r.w))
    exact mono _ _ (perm _ _ _ _ (by ring)) this

end Verif.Fp
