import Verif.Fp.AbModel
import Verif.Fp.Lemmas
import Verif.Smooth.IrregularProps

/-! # One step of the alpha-beta smoother in floating point -/

namespace Verif.Fp

open Verif Verif.Smooth

variable (R : Rounding)

theorem tiny_share : 100 * tiny ≤ u / 2 := by
  have h1 := tiny_small
  have h2 := u_small
  have h3 := u_pos
  have h4 : u ^ 20 ≤ u * (1 / 10 ^ 15) ^ 19 := by
    rw [pow_succ, mul_comm]
    exact mul_le_mul_of_nonneg_left (pow_le_pow_left₀ h3.le h2 19) h3.le
  have h5 : u * (1 / 10 ^ 15) ^ 19 ≤ u / 1000 := by
    have : ((1 : ℝ) / 10 ^ 15) ^ 19 ≤ 1 / 1000 := by norm_num
    calc u * (1 / 10 ^ 15) ^ 19 ≤ u * (1 / 1000) := mul_le_mul_of_nonneg_left this h3.le
      _ = _ := by ring
  linarith

/-- One rounding, of a number that is off by `k` roundings of numbers of the size `S` when multiplied by `t`. -/
theorem rnd_by {k c S t x' x : ℝ} (hk : k ≤ 100) (hk0 : 0 ≤ k) (hS : 1 ≤ S) (ht0 : 0 ≤ t) (ht : t ≤ 11)
    (h : |x' * t - x| ≤ k * u * S) (hx : |x| ≤ c * S) : |R.rnd x' * t - x| ≤ (k + c + 1) * u * S := by
  have hu := u_pos
  have hus := u_small
  have hty := tiny_share
  have htp := tiny_pos
  have h1 := R.near x'
  have h2 : |R.rnd x' * t - x' * t| ≤ u * |x' * t| + tiny * 11 := by
    rw [← sub_mul, abs_mul, abs_mul, abs_of_nonneg ht0]
    calc |R.rnd x' - x'| * t ≤ (u * |x'| + tiny) * t := mul_le_mul_of_nonneg_right h1 ht0
      _ = u * (|x'| * t) + tiny * t := by ring
      _ ≤ _ := by linarith [mul_le_mul_of_nonneg_left ht htp.le]
  have h3 : |x' * t| ≤ c * S + k * u * S := by
    have := abs_sub_abs_le_abs_sub (x' * t) x
    linarith
  have h4 : |R.rnd x' * t - x| ≤ |R.rnd x' * t - x' * t| + |x' * t - x| := abs_sub_le _ _ _
  have h5 : u * |x' * t| ≤ u * (c * S + k * u * S) := mul_le_mul_of_nonneg_left h3 hu.le
  have h6 : u * (k * u * S) ≤ u * S / 4 := by
    have : k * u ≤ 1 / 4 := by
      calc k * u ≤ 100 * (1 / 10 ^ 15) := mul_le_mul hk hus hu.le (by norm_num)
        _ ≤ _ := by norm_num
    calc u * (k * u * S) = (u * S) * (k * u) := by ring
      _ ≤ (u * S) * (1 / 4) := mul_le_mul_of_nonneg_left this (by positivity)
      _ = _ := by ring
  have h7 : u ≤ u * S := by
    calc u = u * 1 := (mul_one _).symm
      _ ≤ u * S := mul_le_mul_of_nonneg_left hS hu.le
  have e : (k + c + 1) * u * S = k * u * S + u * (c * S) + u * S := by ring
  have e2 : u * (c * S + k * u * S) = u * (c * S) + u * (k * u * S) := by ring
  rw [e]
  linarith

/-- The same without the factor. -/
theorem rnd_one {k c S x' x : ℝ} (hk : k ≤ 100) (hk0 : 0 ≤ k) (hS : 1 ≤ S)
    (h : |x' - x| ≤ k * u * S) (hx : |x| ≤ c * S) : |R.rnd x' - x| ≤ (k + c + 1) * u * S := by
  have := rnd_by R (t := 1) (x' := x') (x := x) hk hk0 hS zero_le_one (by norm_num) (by rwa [mul_one]) hx
  rwa [mul_one] at this

/-- The interval. -/
theorem interval_near {d : Int} (hd : 0 < d) : |intervalF R d - d / 1000| ≤ 5 * u * (d / 1000) := by
  have hd1 : (1 : ℝ) ≤ d := by exact_mod_cast hd
  have h1 : |R.rnd d - d| ≤ 2 * u * d := by
    have := rnd_one R (k := 0) (c := 1) (S := d) (x' := d) (x := d) (by norm_num) le_rfl hd1 (by simp) (by rw [abs_of_pos (by linarith)]; linarith)
    linarith
  have hu := u_pos
  have hus := u_small
  have hty := tiny_share
  have h2 : |R.rnd d / 1000 - d / 1000| ≤ 2 * u * (d / 1000) := by
    rw [← sub_div, abs_div, abs_of_pos (by norm_num : (0 : ℝ) < 1000), div_le_iff₀ (by norm_num)]
    linarith
  have h3 := R.near (R.rnd d / 1000)
  have h4 : |R.rnd (d : ℝ) / 1000| ≤ d / 1000 + 2 * u * (d / 1000) := by
    have := abs_sub_abs_le_abs_sub (R.rnd (d : ℝ) / 1000) (d / 1000)
    rw [abs_of_pos (by linarith : (0 : ℝ) < d / 1000)] at this
    linarith
  have h5 : u * |R.rnd (d : ℝ) / 1000| ≤ u * (d / 1000 + 2 * u * (d / 1000)) := mul_le_mul_of_nonneg_left h4 hu.le
  have h6 : u * (2 * u * (d / 1000)) ≤ u * (d / 1000) / 2 := by
    have : 2 * u ≤ 1 / 2 := by linarith
    calc u * (2 * u * (d / 1000)) = (u * (d / 1000)) * (2 * u) := by ring
      _ ≤ (u * (d / 1000)) * (1 / 2) := mul_le_mul_of_nonneg_left this (by positivity)
      _ = _ := by ring
  have h7 : tiny ≤ u * (d / 1000) := by
    have t1 := tiny_small
    have t2 : u ^ 20 ≤ u / 1000 := by
      have : u ^ 19 ≤ 1 / 1000 := by
        calc u ^ 19 ≤ (1 / 10 ^ 15) ^ 19 := pow_le_pow_left₀ hu.le hus 19
          _ ≤ _ := by norm_num
      calc u ^ 20 = u * u ^ 19 := by ring
        _ ≤ u * (1 / 1000) := mul_le_mul_of_nonneg_left this hu.le
        _ = _ := by ring
    have t3 : u / 1000 ≤ u * (d / 1000) := by
      calc u / 1000 = u * (1 / 1000) := by ring
        _ ≤ u * (d / 1000) := mul_le_mul_of_nonneg_left (by linarith) hu.le
    linarith
  have h8 : |intervalF R d - d / 1000| ≤ |intervalF R d - R.rnd d / 1000| + |R.rnd d / 1000 - d / 1000| := abs_sub_le _ _ _
  have h9 : |intervalF R d - R.rnd d / 1000| ≤ u * |R.rnd (d : ℝ) / 1000| + tiny := h3
  have e : u * (d / 1000 + 2 * u * (d / 1000)) = u * (d / 1000) + u * (2 * u * (d / 1000)) := by ring
  have hp : 0 ≤ u * (d / 1000 : ℝ) := by positivity
  have e2 : 5 * u * (d / 1000 : ℝ) = 5 * (u * (d / 1000)) := by ring
  have e3 : 2 * u * (d / 1000 : ℝ) = 2 * (u * (d / 1000)) := by ring
  rw [e2]
  rw [e3] at h2
  linarith

theorem beta_near {a : ℝ} (h0 : 9 / 100 ≤ a) (h1 : a ≤ 91 / 100) : |abBetaF R a - a ^ 2 / (2 - a)| ≤ 10 * u := by
  have hu := u_pos
  have hus := u_small
  have hsq : a * a ≤ 1 := by nlinarith
  have h2 : |R.rnd (a * a) - a * a| ≤ 2 * u := by
    have := rnd_one R (k := 0) (c := 1) (S := 1) (x' := a * a) (x := a * a) (by norm_num) le_rfl le_rfl (by simp)
      (by rw [abs_of_nonneg (mul_self_nonneg a)]; linarith)
    linarith
  have h3 : |R.rnd (2 - a) - (2 - a)| ≤ 3 * u := by
    have := rnd_one R (k := 0) (c := 2) (S := 1) (x' := 2 - a) (x := 2 - a) (by norm_num) le_rfl le_rfl (by simp)
      (by rw [abs_of_nonneg (by linarith)]; linarith)
    linarith
  set A := R.rnd (a * a) with hA
  set B := R.rnd (2 - a) with hB
  have hB1 : 1 ≤ B := by have := (abs_le.mp h3).1; linarith
  have h4 : |A / B - a ^ 2 / (2 - a)| ≤ 7 * u := by
    have hb0 : B ≠ 0 := by linarith
    have ha0 : (2 : ℝ) - a ≠ 0 := by linarith
    have e : A / B - a ^ 2 / (2 - a) = ((A - a * a) * (2 - a) - (B - (2 - a)) * (a * a)) / (B * (2 - a)) := by
      field_simp
      ring
    have hpos : 0 < B * (2 - a) := mul_pos (by linarith) (by linarith)
    rw [e, abs_div, abs_of_pos hpos, div_le_iff₀ hpos]
    have q1 : |(A - a * a) * (2 - a)| ≤ 2 * u * 2 := by
      rw [abs_mul, abs_of_pos (by linarith : 0 < 2 - a)]
      exact mul_le_mul h2 (by linarith) (by linarith) (by positivity)
    have q2 : |(B - (2 - a)) * (a * a)| ≤ 3 * u * 1 := by
      rw [abs_mul, abs_of_nonneg (mul_self_nonneg a)]
      exact mul_le_mul h3 hsq (mul_self_nonneg a) (by positivity)
    have q3 := abs_sub ((A - a * a) * (2 - a)) ((B - (2 - a)) * (a * a))
    have q4 : 1 ≤ B * (2 - a) := one_le_mul_of_one_le_of_one_le hB1 (by linarith)
    have q5 : 7 * u * 1 ≤ 7 * u * (B * (2 - a)) := mul_le_mul_of_nonneg_left q4 (by positivity)
    linarith
  have h5 : |a ^ 2 / (2 - a)| ≤ 1 := by
    rw [abs_of_nonneg (div_nonneg (sq_nonneg a) (by linarith)), div_le_one (by linarith)]
    nlinarith
  have := rnd_one R (k := 7) (c := 1) (S := 1) (x' := A / B) (x := a ^ 2 / (2 - a)) (by norm_num) (by norm_num) le_rfl (by linarith) (by linarith)
  unfold abBetaF
  rw [← hA, ← hB, divide_eq (by linarith : B ≠ 0)]
  linarith

/-- One step: the smoothed coordinate and the speed times the interval against the exact step from the same state. -/
theorem smooth_near {a x v p z M δ : ℝ} {d : Int} (hd : 0 < d) (h0 : 9 / 100 ≤ a) (h1 : a ≤ 91 / 100) (hM : 1 ≤ M) (hz : |z| ≤ M)
    (hp : |p - z| ≤ δ) (ht : intervalF R d ≤ 10) :
    let t : ℝ := d / 1000
    let S := M + |x - z| + |v * t| + δ
    |placeF R a x v (intervalF R d) p - (x + v * t + a * (p - (x + v * t)))| ≤ 32 * u * S ∧
    |speedF R a x v (intervalF R d) p * t - (v * t + a ^ 2 / (2 - a) * (p - (x + v * t)))| ≤ 77 * u * S := by
  intro t S
  have hu := u_pos
  have hus := u_small
  have hδ : 0 ≤ δ := (abs_nonneg _).trans hp
  have hS1 : 1 ≤ S := by have := abs_nonneg (x - z); have := abs_nonneg (v * t); simp only [S]; linarith
  have hS0 : 0 ≤ S := by linarith
  have hdr : (1 : ℝ) ≤ d := by exact_mod_cast hd
  have ht0 : 0 < t := by simp only [t]; linarith
  have hti : |intervalF R d - t| ≤ 5 * u * t := interval_near R hd
  set T := intervalF R d with hT
  have hut : 5 * u * t ≤ t / 100 := by
    have : 5 * u ≤ 1 / 100 := by linarith
    calc 5 * u * t ≤ 1 / 100 * t := mul_le_mul_of_nonneg_right this ht0.le
      _ = _ := by ring
  obtain ⟨hl, hr⟩ := abs_le.mp hti
  have ht11 : t ≤ 11 := by linarith
  have hT0 : 0 < T := by linarith
  set w := v * t with hw
  have hwS : |w| ≤ S := by have := abs_nonneg (x - z); simp only [S]; linarith
  have hxw : |x + w| ≤ S := by
    have q1 := abs_add_le (x - z) w
    have q2 := abs_add_le z (x - z + w)
    rw [show z + (x - z + w) = x + w by ring] at q2
    simp only [S]; linarith
  have hd0 : |p - (x + w)| ≤ S := by
    have q1 := abs_add_le (x - z) w
    have q2 := abs_sub (p - z) (x - z + w)
    rw [show p - z - (x - z + w) = p - (x + w) by ring] at q2
    simp only [S]; linarith
  have huS : 0 ≤ u * S := by positivity
  -- the way
  have s1 : |v * T - w| ≤ 5 * u * S := by
    have : v * T - w = v * (T - t) := by simp only [hw]; ring
    rw [this, abs_mul]
    calc |v| * |T - t| ≤ |v| * (5 * u * t) := mul_le_mul_of_nonneg_left hti (abs_nonneg v)
      _ = 5 * u * |w| := by rw [hw, abs_mul, abs_of_pos ht0]; ring
      _ ≤ _ := mul_le_mul_of_nonneg_left hwS (by positivity)
  have s2 := rnd_one R (c := 1) (by norm_num) (by norm_num) hS1 s1 (by rw [one_mul]; exact hwS)
  -- the prediction
  have s3 : |predictF R x v T - (x + w)| ≤ 9 * u * S := by
    have q : |x + R.rnd (v * T) - (x + w)| ≤ 7 * u * S := by
      rw [show x + R.rnd (v * T) - (x + w) = R.rnd (v * T) - w by ring]
      linarith
    have := rnd_one R (c := 1) (by norm_num) (by norm_num) hS1 q (by rw [one_mul]; exact hxw)
    unfold predictF
    linarith
  set xp := predictF R x v T with hxp
  -- the innovation
  have s4 : |R.rnd (p - xp) - (p - (x + w))| ≤ 11 * u * S := by
    have q : |p - xp - (p - (x + w))| ≤ 9 * u * S := by
      rw [show p - xp - (p - (x + w)) = -(xp - (x + w)) by ring, abs_neg]
      exact s3
    have := rnd_one R (c := 1) (by norm_num) (by norm_num) hS1 q (by rw [one_mul]; exact hd0)
    linarith
  set D := R.rnd (p - xp) with hD
  set d0 := p - (x + w) with hdd
  have hDS : |D| ≤ 2 * S := by
    have q := abs_sub_abs_le_abs_sub D d0
    have : 11 * u * S ≤ S := by
      calc 11 * u * S ≤ 1 * S := mul_le_mul_of_nonneg_right (by linarith) hS0
        _ = S := one_mul S
    linarith
  have had : |a * d0| ≤ S := by
    rw [abs_mul, abs_of_pos (by linarith : 0 < a)]
    calc a * |d0| ≤ 1 * S := mul_le_mul (by linarith) hd0 (abs_nonneg _) (by norm_num)
      _ = S := one_mul S
  constructor
  · have q1 : |a * D - a * d0| ≤ 11 * u * S := by
      rw [← mul_sub, abs_mul, abs_of_pos (by linarith : 0 < a)]
      calc a * |D - d0| ≤ 1 * (11 * u * S) := mul_le_mul (by linarith) s4 (abs_nonneg _) (by norm_num)
        _ = _ := one_mul _
    have q2 := rnd_one R (c := 1) (by norm_num) (by norm_num) hS1 q1 (by rw [one_mul]; exact had)
    have q3 : |xp + R.rnd (a * D) - (x + w + a * d0)| ≤ 22 * u * S := by
      have := abs_add_le (xp - (x + w)) (R.rnd (a * D) - a * d0)
      rw [show xp - (x + w) + (R.rnd (a * D) - a * d0) = xp + R.rnd (a * D) - (x + w + a * d0) by ring] at this
      linarith
    have q4 : |x + w + a * d0| ≤ 2 * S := by have := abs_add_le (x + w) (a * d0); linarith
    have q5 := rnd_one R (c := 2) (by norm_num) (by norm_num) hS1 q3 q4
    unfold placeF
    rw [← hxp, ← hD]
    linarith
  · set b0 := a ^ 2 / (2 - a) with hb0
    have hb := beta_near R h0 h1
    rw [← hb0] at hb
    set b := abBetaF R a with hbb
    have hb01 : |b0| ≤ 1 := by
      rw [hb0, abs_of_nonneg (div_nonneg (sq_nonneg a) (by linarith)), div_le_one (by linarith)]
      nlinarith
    have hb2 : |b| ≤ 2 := by have := abs_sub_abs_le_abs_sub b b0; linarith
    -- the quotient
    have k1 : |b / T * t - b0| ≤ 22 * u * 1 := by
      have e : b / T * t - b = b * (t - T) / T := by
        field_simp
      have q1 : |b / T * t - b| ≤ 12 * u := by
        rw [e, abs_div, abs_mul, abs_of_pos hT0, div_le_iff₀ hT0, abs_sub_comm t T]
        calc |b| * |T - t| ≤ 2 * (5 * u * t) := mul_le_mul hb2 hti (abs_nonneg _) (by norm_num)
          _ ≤ 12 * u * T := by
            have : t ≤ 1.1 * T := by linarith
            have := mul_le_mul_of_nonneg_left this hu.le
            linarith
      have q2 := abs_add_le (b / T * t - b) (b - b0)
      rw [sub_add_sub_cancel] at q2
      linarith
    have k2 := rnd_by R (c := 1) (S := 1) (by norm_num) (by norm_num) le_rfl ht0.le ht11 k1 (by rw [one_mul]; exact hb01)
    set K := R.rnd (b / T) with hK
    -- the correction
    have hK2 : |K * t| ≤ 2 := by have := abs_sub_abs_le_abs_sub (K * t) b0; linarith
    have hbd : |b0 * d0| ≤ S := by
      rw [abs_mul]
      calc |b0| * |d0| ≤ 1 * S := mul_le_mul hb01 hd0 (abs_nonneg _) (by norm_num)
        _ = S := one_mul S
    have k3 : |K * D * t - b0 * d0| ≤ 59 * u * S := by
      have e : K * D * t - b0 * d0 = (K * t - b0) * D + b0 * (D - d0) := by ring
      rw [e]
      have q1 := abs_add_le ((K * t - b0) * D) (b0 * (D - d0))
      have q2 : |(K * t - b0) * D| ≤ (24 * u) * (2 * S) := by
        rw [abs_mul]
        exact mul_le_mul (by linarith) hDS (abs_nonneg _) (by positivity)
      have q3 : |b0 * (D - d0)| ≤ 1 * (11 * u * S) := by
        rw [abs_mul]
        exact mul_le_mul hb01 s4 (abs_nonneg _) (by norm_num)
      linarith
    have k4 := rnd_by R (c := 1) (by norm_num) (by norm_num) hS1 ht0.le ht11 k3 (by rw [one_mul]; exact hbd)
    have k5 : |(v + R.rnd (K * D)) * t - (w + b0 * d0)| ≤ 61 * u * S := by
      rw [show (v + R.rnd (K * D)) * t - (w + b0 * d0) = R.rnd (K * D) * t - b0 * d0 by simp only [hw]; ring]
      linarith
    have k6 : |w + b0 * d0| ≤ 2 * S := by have := abs_add_le w (b0 * d0); linarith
    have k7 := rnd_by R (c := 2) (by norm_num) (by norm_num) hS1 ht0.le ht11 k5 k6
    unfold speedF
    rw [← hxp, ← hD, ← hbb, divide_eq hT0.ne', ← hK]
    linarith

end Verif.Fp
