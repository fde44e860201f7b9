import Verif.Fp.AbLemmas
import Verif.Fp.Instance

/-!
# C156: rounding errors of the alpha-beta smoother
-/

namespace Verif.Fp

open Verif Verif.Smooth

variable (R : Rounding)

/-! ## Specification -/

/-- The ratio `r` of successive intervals is mild for the gain `a`, by the margin `m`. -/
def Calm (m a r : ℝ) : Prop := (1 - a) * r ^ 2 - 2 * (1 - a) ^ 2 * r + (1 - a) + (1 - a) ^ 2 ≤ 1 - m

/-- Equal intervals are mild by the square of the gain. -/
theorem calm_regular (a : ℝ) : Calm (a ^ 2) a 1 := by unfold Calm; nlinarith

/-! ## The norm of C122 -/

theorem u_le : u ≤ 1.2 / 10 ^ 16 := by unfold u; norm_num

variable {a : ℝ}

theorem size_wide (h0 : 9 / 100 ≤ a) (h1 : a ≤ 91 / 100) (e w : ℝ) : size a e w ≤ 24 * (|e| + |w|) := by
  have e1 := size_add a e 0 0 w
  rw [add_zero, zero_add] at e1
  have e2 := size_shift (by linarith : 0 < a) (by linarith : a < 1) e
  have e3 : size a 0 w ≤ 24 * |w| := by
    refine abs_le_of_sq_le_sq' ?_ (by positivity) |>.2
    rw [size_sq (by linarith) (by linarith), mul_pow, sq_abs]
    unfold energy
    have h2 : (2 - a) / a ≤ 22 := by rw [div_le_iff₀ (by linarith)]; linarith
    have h3 : 0 ≤ (2 - a) / a := div_nonneg (by linarith) (by linarith)
    have h4 : ((2 - a) / a) ^ 2 ≤ 22 ^ 2 := pow_le_pow_left₀ h3 h2 2
    have h5 : (1 - a) * w ^ 2 ≤ 1 * w ^ 2 := mul_le_mul_of_nonneg_right (by linarith) (sq_nonneg w)
    have h6 : 0 ≤ (1 - a) * w ^ 2 := mul_nonneg (by linarith) (sq_nonneg w)
    have h7 := mul_le_mul h4 h5 h6 (by norm_num)
    have h8 := sq_nonneg w
    ring_nf at h7 ⊢
    linarith
  have := abs_nonneg e
  linarith

theorem size_speed (h0 : 9 / 100 ≤ a) (h1 : a ≤ 91 / 100) (e w : ℝ) : |w| ≤ 4 * size a e w := by
  have e1 := size_error a e w
  have e2 : |Real.sqrt (1 - a) * ((2 - a) / a * w - e)| ≤ size a e w := Complex.abs_im_le_norm ⟨e, _⟩
  have h2 : (3 : ℝ) / 10 ≤ Real.sqrt (1 - a) := Real.le_sqrt_of_sq_le (by norm_num; linarith)
  have h3 : (109 : ℝ) / 91 ≤ (2 - a) / a := by rw [div_le_div_iff₀ (by norm_num) (by linarith)]; linarith
  rw [abs_mul, abs_of_nonneg (Real.sqrt_nonneg _)] at e2
  have e3 : 3 / 10 * |(2 - a) / a * w - e| ≤ size a e w :=
    (mul_le_mul_of_nonneg_right h2 (abs_nonneg _)).trans e2
  have e4 := abs_sub_abs_le_abs_sub ((2 - a) / a * w) e
  rw [abs_mul, abs_of_nonneg (by linarith : 0 ≤ (2 - a) / a)] at e4
  have e5 : 109 / 91 * |w| ≤ (2 - a) / a * |w| := mul_le_mul_of_nonneg_right h3 (abs_nonneg w)
  have := abs_nonneg w
  linarith

/-- A mild change of the interval, with an explicit rate. -/
theorem calm_scale {m lo hi : ℝ} (h0 : 0 < a) (h1 : a < 1) (hm0 : 0 < m) (hlo : Calm m a lo) (hhi : Calm m a hi) :
    m ≤ a ∧ ∀ r, lo ≤ r → r ≤ hi → ∀ e w, (1 - a) * energy a e (r * w) ≤ (1 - m / 2) * energy a e w := by
  set c := 1 - a with hc
  have hc0 : 0 < c := by linarith
  have hc1 : c < 1 := by linarith
  have ha : a = 1 - c := by linarith
  set F : ℝ → ℝ := fun r => 1 - c - c ^ 2 - c * r ^ 2 + 2 * c ^ 2 * r with hF
  have hFlo : m ≤ F lo := by unfold Calm at hlo; rw [← hc] at hlo; simp only [hF]; linarith
  have hFhi : m ≤ F hi := by unfold Calm at hhi; rw [← hc] at hhi; simp only [hF]; linarith
  have hma : m ≤ a := by
    have e : F lo = a - c ^ 2 * (1 - c) - c * (lo - c) ^ 2 := by simp only [hF]; rw [ha]; ring
    have p1 : 0 ≤ c ^ 2 * (1 - c) := mul_nonneg (sq_nonneg c) (by linarith)
    have p2 : 0 ≤ c * (lo - c) ^ 2 := mul_nonneg hc0.le (sq_nonneg _)
    linarith
  have hFr : ∀ r, lo ≤ r → r ≤ hi → m ≤ F r := by
    intro r hr1 hr2
    by_cases hlt : lo < hi
    · have e : F r = ((hi - r) * F lo + (r - lo) * F hi) / (hi - lo) + c * (r - lo) * (hi - r) := by
        have : hi - lo ≠ 0 := by linarith
        simp only [hF]
        field_simp
        ring
      rw [e]
      have p1 : 0 ≤ c * (r - lo) * (hi - r) := mul_nonneg (mul_nonneg hc0.le (by linarith)) (by linarith)
      have p2 : m ≤ ((hi - r) * F lo + (r - lo) * F hi) / (hi - lo) := by
        rw [le_div_iff₀ (by linarith)]
        have q1 := mul_le_mul_of_nonneg_left hFlo (by linarith : 0 ≤ hi - r)
        have q2 := mul_le_mul_of_nonneg_left hFhi (by linarith : 0 ≤ r - lo)
        calc m * (hi - lo) = (hi - r) * m + (r - lo) * m := by ring
          _ ≤ _ := add_le_add q1 q2
      linarith
    · have : r = lo := by linarith
      rw [this]
      exact hFlo
  refine ⟨hma, ?_⟩
  set g := 1 - m / 2 with hg
  have hgc : c < g := by linarith
  intro r hr1 hr2 e w
  have hdisc : 0 ≤ (1 + c) * (g - c) * (g - c * r ^ 2) - c * (g - c * r) ^ 2 := by
    have e : (1 + c) * (g - c) * (g - c * r ^ 2) - c * (g - c * r) ^ 2 =
        F r - (1 - g ^ 2) + (1 - g) * (c * ((1 + r ^ 2) + c * (1 - r) ^ 2)) := by
      simp only [hF]; ring
    rw [e]
    have p1 := hFr r hr1 hr2
    have p2 : 1 - g ^ 2 ≤ 2 * (1 - g) := by nlinarith [sq_nonneg (1 - g)]
    have p3 : 0 ≤ (1 - g) * (c * ((1 + r ^ 2) + c * (1 - r) ^ 2)) :=
      mul_nonneg (by linarith) (mul_nonneg hc0.le (by positivity))
    linarith
  have h2a : (0 : ℝ) < 1 + c := by linarith
  have hid : g * energy a e w - c * energy a e (r * w) =
      ((a / (1 + c)) ^ 2 * ((1 + c) * (g - c) * e - (1 + c) * (c / a) * (g - c * r) * w) ^ 2 +
        c * ((1 + c) * (g - c) * (g - c * r ^ 2) - c * (g - c * r) ^ 2) * w ^ 2) / ((1 + c) * (g - c)) := by
    have hgc' : g - c ≠ 0 := by linarith
    have ha' : (1 : ℝ) - c ≠ 0 := by linarith
    have h3 : (2 : ℝ) - (1 - c) = 1 + c := by ring
    unfold energy
    rw [ha, h3]
    clear_value g
    field_simp
    ring
  have : 0 ≤ g * energy a e w - c * energy a e (r * w) := by
    rw [hid]
    have p1 : 0 < (1 + c) * (g - c) := mul_pos h2a (by linarith)
    have p2 : 0 ≤ c * ((1 + c) * (g - c) * (g - c * r ^ 2) - c * (g - c * r) ^ 2) * w ^ 2 :=
      mul_nonneg (mul_nonneg hc0.le hdisc) (sq_nonneg _)
    positivity
  linarith

/-- The smoothed coordinate and the speed, one step without reset. -/
theorem step_size {x v p z M δ : ℝ} {d : Int} (hd : 0 < d) (h0 : 9 / 100 ≤ a) (h1 : a ≤ 91 / 100) (hM : 1 ≤ M) (hz : |z| ≤ M)
    (hp : |p - z| ≤ δ) (ht : intervalF R d ≤ 10) :
    size a (placeF R a x v (intervalF R d) p - z) (speedF R a x v (intervalF R d) p * (d / 1000)) ≤
      Real.sqrt (1 - a) * size a (x - z) (v * (d / 1000)) + 4 * δ +
        3.2 / 10 ^ 13 * (M + 5 * size a (x - z) (v * (d / 1000)) + δ) := by
  have ha0 : 0 < a := by linarith
  have ha1 : a < 1 := by linarith
  obtain ⟨n1, n2⟩ := smooth_near R (x := x) (v := v) hd h0 h1 hM hz hp ht
  set t : ℝ := d / 1000 with htt
  set w := v * t with hw
  set X := placeF R a x v (intervalF R d) p with hX
  set V := speedF R a x v (intervalF R d) p with hV
  set X0 := x + w + a * (p - (x + w)) with hX0
  set W0 := w + a ^ 2 / (2 - a) * (p - (x + w)) with hW0
  set N := size a (x - z) w with hN
  have e1 : size a (X0 - p) W0 ≤ Real.sqrt (1 - a) * size a (x - p) w := by
    refine size_le ha0 ha1 (by linarith) (le_of_eq ?_)
    rw [← energy_step (by linarith) (x - p) w]
    congr 1
    · simp only [hX0]; ring
    · simp only [hW0]; ring
  have e2 := size_add a (x - z) w (z - p) 0
  rw [add_zero, sub_add_sub_cancel] at e2
  have e3 := size_shift ha0 ha1 (z - p)
  rw [abs_sub_comm z p] at e3
  have e4 := size_add a (X0 - p) W0 (p - z) 0
  rw [add_zero, sub_add_sub_cancel] at e4
  have e5 := size_shift ha0 ha1 (p - z)
  have e6 := size_add a (X0 - z) W0 (X - X0) (V * t - W0)
  rw [show X0 - z + (X - X0) = X - z by ring, add_sub_cancel] at e6
  have e7 := size_wide h0 h1 (X - X0) (V * t - W0)
  have hs1 : Real.sqrt (1 - a) ≤ 1 := by
    rw [Real.sqrt_le_left (by norm_num)]; linarith
  have hs0 := Real.sqrt_nonneg (1 - a)
  have hδ : 0 ≤ δ := (abs_nonneg _).trans hp
  have e8 : Real.sqrt (1 - a) * size a (x - p) w ≤ Real.sqrt (1 - a) * N + 2 * δ := by
    have q1 := mul_le_mul_of_nonneg_left (by linarith : size a (x - p) w ≤ N + 2 * δ) hs0
    have q2 := mul_le_mul_of_nonneg_right hs1 (by linarith : 0 ≤ 2 * δ)
    linarith
  have e9 : M + |x - z| + |w| + δ ≤ M + 5 * N + δ := by
    have := size_error a (x - z) w
    have := size_speed h0 h1 (x - z) w
    linarith
  have hN0 : 0 ≤ N := size_nonneg _ _ _
  have e10 : 24 * (109 * u * (M + |x - z| + |w| + δ)) ≤ 3.2 / 10 ^ 13 * (M + 5 * N + δ) := by
    have q : 24 * 109 * u ≤ 3.2 / 10 ^ 13 := by have := u_le; norm_num at this ⊢; linarith
    have hu := u_pos
    calc 24 * (109 * u * (M + |x - z| + |w| + δ)) = 24 * 109 * u * (M + |x - z| + |w| + δ) := by ring
      _ ≤ 24 * 109 * u * (M + 5 * N + δ) := mul_le_mul_of_nonneg_left e9 (by positivity)
      _ ≤ _ := mul_le_mul_of_nonneg_right q (by linarith)
  linarith

/-- One step, whatever the resets do. -/
theorem stepF (P : AbParams) (hacc : P.useAccuracyForSmoothing = false) (h0 : 9 / 100 ≤ P.alpha) (h1 : P.alpha ≤ 91 / 100)
    (allowed : ℝ → ℝ → Prop) (s : AbState) (pos : Position) (hts : s.position.ts < pos.ts) {x y M δ : ℝ} (hM : 1 ≤ M)
    (hxM : |x| ≤ M) (hyM : |y| ≤ M) (hx : |pos.x - x| ≤ δ) (hy : |pos.y - y| ≤ δ) :
    let t : ℝ := ((pos.ts - s.position.ts : Int) : ℝ) / 1000
    let s' := (abSmoothF R P allowed s pos).2
    s'.position.ts = pos.ts ∧
    size P.alpha (s'.position.x - x) (s'.speedX * t) ≤ Real.sqrt (1 - P.alpha) * size P.alpha (s.position.x - x) (s.speedX * t) + 4 * δ +
      3.2 / 10 ^ 13 * (M + 5 * size P.alpha (s.position.x - x) (s.speedX * t) + δ) ∧
    size P.alpha (s'.position.y - y) (s'.speedY * t) ≤ Real.sqrt (1 - P.alpha) * size P.alpha (s.position.y - y) (s.speedY * t) + 4 * δ +
      3.2 / 10 ^ 13 * (M + 5 * size P.alpha (s.position.y - y) (s.speedY * t) + δ) := by
  intro t s'
  have hg : abGainF R P s pos = P.alpha := by unfold abGainF; rw [hacc]; simp
  have hd : 0 < pos.ts - s.position.ts := by omega
  have hδ : 0 ≤ δ := (abs_nonneg _).trans hx
  have reset : ∀ {z p e w : ℝ}, |p - z| ≤ δ → size P.alpha (p - z) (0 * t) ≤
      Real.sqrt (1 - P.alpha) * size P.alpha e w + 4 * δ + 3.2 / 10 ^ 13 * (M + 5 * size P.alpha e w + δ) := by
    intro z p e w h
    rw [zero_mul]
    have e1 := size_shift (by linarith : 0 < P.alpha) (by linarith : P.alpha < 1) (p - z)
    have e2 := mul_nonneg (Real.sqrt_nonneg (1 - P.alpha)) (size_nonneg P.alpha e w)
    have e3 : 0 ≤ 3.2 / 10 ^ 13 * (M + 5 * size P.alpha e w + δ) := by
      have := size_nonneg P.alpha e w
      positivity
    linarith
  have hs' : s' = (abSmoothF R P allowed s pos).2 := rfl
  unfold abSmoothF at hs'
  rw [if_pos hts] at hs'
  dsimp only at hs'
  rw [hg] at hs'
  split_ifs at hs' with hc
  · rw [hs']
    exact ⟨rfl, reset hx, reset hy⟩
  all_goals
    rw [hs']
    have ht : intervalF R (pos.ts - s.position.ts) ≤ 10 := by
      by_contra hn
      exact hc (.inr (.inl (not_le.mp hn)))
    exact ⟨rfl, step_size R hd h0 h1 hM hxM hx ht, step_size R hd h0 h1 hM hyM hy ht⟩

/-- All steps, for a rate `q` and a bound `G`. -/
theorem all_steps (P : AbParams) (hacc : P.useAccuracyForSmoothing = false) (h0 : 9 / 100 ≤ P.alpha) (h1 : P.alpha ≤ 91 / 100)
    {lo hi μ q G : ℝ} (hμ0 : 0 ≤ μ) (hscale : ∀ r, lo ≤ r → r ≤ hi → ∀ e w, size P.alpha e (r * w) ≤ μ * size P.alpha e w)
    (hq0 : 0 ≤ q) (hq : μ * (Real.sqrt (1 - P.alpha) + 1.6 / 10 ^ 12) ≤ q)
    (allowed : ℕ → ℝ → ℝ → Prop) (s : AbState) {x y M δ : ℝ} (hM : 1 ≤ M) (hxM : |x| ≤ M) (hyM : |y| ≤ M)
    (hG0 : 0 ≤ G) (hG : μ * (4 * δ + 3.2 / 10 ^ 13 * (M + δ)) ≤ G * (1 - q)) (pos : ℕ → Position)
    (hn : Near x y δ pos) (hi' : Intervals s.position.ts lo hi pos) (n : ℕ) :
    |(abIterateF R P allowed s pos n).position.x - x| ≤
      24 * (|s.position.x - x| + |s.speedX * (((pos 0).ts - s.position.ts : Int) / 1000)|) * q ^ n + G ∧
    |(abIterateF R P allowed s pos n).position.y - y| ≤
      24 * (|s.position.y - y| + |s.speedY * (((pos 0).ts - s.position.ts : Int) / 1000)|) * q ^ n + G := by
  set T : ℕ → ℝ := fun n => (((pos n).ts - before s.position.ts pos n : Int) : ℝ) / 1000 with hT
  set X := size P.alpha (s.position.x - x) (s.speedX * T 0) with hX
  set Y := size P.alpha (s.position.y - y) (s.speedY * T 0) with hY
  have inv : ∀ n, (abIterateF R P allowed s pos n).position.ts = before s.position.ts pos n ∧
      size P.alpha ((abIterateF R P allowed s pos n).position.x - x) ((abIterateF R P allowed s pos n).speedX * T n) ≤ X * q ^ n + G ∧
      size P.alpha ((abIterateF R P allowed s pos n).position.y - y) ((abIterateF R P allowed s pos n).speedY * T n) ≤ Y * q ^ n + G := by
    intro n
    induction n with
    | zero =>
      refine ⟨rfl, ?_, ?_⟩ <;> rw [pow_zero, mul_one]
      · show X ≤ _; linarith
      · show Y ≤ _; linarith
    | succ n ih =>
      obtain ⟨i1, i2, i3⟩ := ih
      obtain ⟨c1, c2, c3⟩ := stepF R P hacc h0 h1 (allowed n) (abIterateF R P allowed s pos n) (pos n)
        (by rw [i1]; exact hi'.later n) hM hxM hyM (hn.x n) (hn.y n)
      rw [i1] at c2 c3
      have hTn : 0 < T n := by
        have : (0 : ℝ) < (((pos n).ts - before s.position.ts pos n : Int) : ℝ) := by
          have := hi'.later n
          exact_mod_cast (by omega : 0 < (pos n).ts - before s.position.ts pos n)
        exact div_pos this (by norm_num)
      set r := T (n + 1) / T n with hr
      have hrT : T (n + 1) = r * T n := by rw [hr, div_mul_cancel₀ _ hTn.ne']
      have hr1 : lo ≤ r := by
        rw [hr, le_div_iff₀ hTn]
        simp only [hT]
        rw [← mul_div_assoc]
        exact div_le_div_of_nonneg_right (hi'.lo n) (by norm_num)
      have hr2 : r ≤ hi := by
        rw [hr, div_le_iff₀ hTn]
        simp only [hT]
        rw [← mul_div_assoc]
        exact div_le_div_of_nonneg_right (hi'.hi n) (by norm_num)
      have fin : ∀ {e v e0 w0 E : ℝ}, size P.alpha e (v * T n) ≤ Real.sqrt (1 - P.alpha) * size P.alpha e0 w0 + 4 * δ +
            3.2 / 10 ^ 13 * (M + 5 * size P.alpha e0 w0 + δ) →
          size P.alpha e0 w0 ≤ E * q ^ n + G → size P.alpha e (v * T (n + 1)) ≤ E * q ^ (n + 1) + G := by
        intro e v e0 w0 E q1 q2
        have q3 : v * T (n + 1) = r * (v * T n) := by rw [hrT]; ring
        rw [q3]
        refine (hscale r hr1 hr2 _ _).trans ?_
        have q4 := mul_le_mul_of_nonneg_left q1 hμ0
        set N := size P.alpha e0 w0 with hN
        have hN0 : 0 ≤ N := size_nonneg _ _ _
        have q6 : μ * (Real.sqrt (1 - P.alpha) * N + 4 * δ + 3.2 / 10 ^ 13 * (M + 5 * N + δ)) =
            μ * (Real.sqrt (1 - P.alpha) + 1.6 / 10 ^ 12) * N + μ * (4 * δ + 3.2 / 10 ^ 13 * (M + δ)) := by ring
        rw [q6] at q4
        have q7 : μ * (Real.sqrt (1 - P.alpha) + 1.6 / 10 ^ 12) * N ≤ q * N := mul_le_mul_of_nonneg_right hq hN0
        have q10 : q * N ≤ q * (E * q ^ n + G) := mul_le_mul_of_nonneg_left q2 hq0
        have q11 : q * (E * q ^ n + G) = E * q ^ (n + 1) + G - G * (1 - q) := by rw [pow_succ]; ring
        rw [q11] at q10
        linarith
      exact ⟨c1, fin c2 i2, fin c3 i3⟩
  obtain ⟨-, i2, i3⟩ := inv n
  have hqn : 0 ≤ q ^ n := pow_nonneg hq0 n
  have x1 := mul_le_mul_of_nonneg_right (size_wide h0 h1 (s.position.x - x) (s.speedX * T 0)) hqn
  have y1 := mul_le_mul_of_nonneg_right (size_wide h0 h1 (s.position.y - y) (s.speedY * T 0)) hqn
  have x2 := (size_error _ _ _).trans i2
  have y2 := (size_error _ _ _).trans i3
  exact ⟨x2.trans (by show _ ≤ 24 * (|s.position.x - x| + |s.speedX * T 0|) * q ^ n + G; linarith),
    y2.trans (by show _ ≤ 24 * (|s.position.y - y| + |s.speedY * T 0|) * q ^ n + G; linarith)⟩

/-- **C156.** The alpha-beta smoother in floating point, with any rounding: measurements at most `δ` off a fixed place whose coordinates
are at most `M`, intervals whose ratios are mild by the margin `m`. From any state and whatever resets happen, the error of the smoothed
position is at most `(70 δ + 10⁻¹¹ M) / m`, apart from a term that vanishes geometrically. Rounding errors do not add up. -/
theorem C156_near (P : AbParams) (hacc : P.useAccuracyForSmoothing = false) (h0 : 9 / 100 ≤ P.alpha) (h1 : P.alpha ≤ 91 / 100)
    {m lo hi : ℝ} (hm : 1 / 10 ^ 6 ≤ m) (hlo : Calm m P.alpha lo) (hhi : Calm m P.alpha hi)
    (allowed : ℕ → ℝ → ℝ → Prop) (s : AbState) {x y M δ : ℝ} (hM : 1 ≤ M) (hxM : |x| ≤ M) (hyM : |y| ≤ M) (pos : ℕ → Position)
    (hn : Near x y δ pos) (hi' : Intervals s.position.ts lo hi pos) (n : ℕ) :
    |(abIterateF R P allowed s pos n).position.x - x| ≤
      24 * (|s.position.x - x| + |s.speedX * (((pos 0).ts - s.position.ts : Int) / 1000)|) * (1 - m / 5) ^ n + (70 * δ + M / 10 ^ 11) / m ∧
    |(abIterateF R P allowed s pos n).position.y - y| ≤
      24 * (|s.position.y - y| + |s.speedY * (((pos 0).ts - s.position.ts : Int) / 1000)|) * (1 - m / 5) ^ n + (70 * δ + M / 10 ^ 11) / m := by
  have ha0 : 0 < P.alpha := by linarith
  have ha1 : P.alpha < 1 := by linarith
  have hc : 0 < 1 - P.alpha := by linarith
  have hm0 : 0 < m := lt_of_lt_of_le (by norm_num) hm
  obtain ⟨hma, hg⟩ := calm_scale ha0 ha1 hm0 hlo hhi
  have hg0 : 0 ≤ 1 - m / 2 := by linarith
  have hδ : 0 ≤ δ := (abs_nonneg _).trans (hn.x 0)
  have hγ1 : Real.sqrt (1 - m / 2) ≤ 1 - m / 4 := by
    rw [Real.sqrt_le_left (by linarith)]
    nlinarith [sq_nonneg m]
  set μ := Real.sqrt ((1 - m / 2) / (1 - P.alpha)) with hμ
  have hμ0 : 0 ≤ μ := Real.sqrt_nonneg _
  have hμ1 : μ ≤ 10 / 3 := by
    rw [hμ, Real.sqrt_le_left (by norm_num), div_le_iff₀ hc]
    linarith
  have hμγ : μ * Real.sqrt (1 - P.alpha) = Real.sqrt (1 - m / 2) := by
    rw [hμ, ← Real.sqrt_mul (by positivity), div_mul_cancel₀ _ hc.ne']
  refine all_steps R P hacc h0 h1 (μ := μ) hμ0 ?_ (by linarith) ?_ allowed s hM hxM hyM (by positivity) ?_ pos hn hi' n
  · intro r hr1 hr2 e w
    refine size_le ha0 ha1 (by positivity) ?_
    have := hg r hr1 hr2 e w
    rw [div_mul_eq_mul_div, le_div_iff₀ hc]
    linarith
  · rw [mul_add, hμγ]
    have q1 := mul_le_mul_of_nonneg_right hμ1 (by norm_num : (0 : ℝ) ≤ 1.6 / 10 ^ 12)
    norm_num at hm q1 ⊢
    linarith
  · have e : (70 * δ + M / 10 ^ 11) / m * (1 - (1 - m / 5)) = 14 * δ + M / (5 * 10 ^ 11) := by field_simp; ring
    rw [e]
    have q1 := mul_le_mul_of_nonneg_right hμ1 (by positivity : (0 : ℝ) ≤ 4 * δ + 3.2 / 10 ^ 13 * (M + δ))
    norm_num at q1 ⊢
    linarith

/-- **C156.** The same with equal intervals: the rate is the square root of one minus the gain, up to `10⁻¹¹`. -/
theorem C156_regular (P : AbParams) (hacc : P.useAccuracyForSmoothing = false) (h0 : 9 / 100 ≤ P.alpha) (h1 : P.alpha ≤ 91 / 100)
    (allowed : ℕ → ℝ → ℝ → Prop) (s : AbState) {x y M δ : ℝ} (hM : 1 ≤ M) (hxM : |x| ≤ M) (hyM : |y| ≤ M) (pos : ℕ → Position)
    (hn : Near x y δ pos) (hi' : Intervals s.position.ts 1 1 pos) (n : ℕ) {q : ℝ} (hq : q = Real.sqrt (1 - P.alpha) + 1 / 10 ^ 11) :
    q < 96 / 100 ∧
    |(abIterateF R P allowed s pos n).position.x - x| ≤
      24 * (|s.position.x - x| + |s.speedX * (((pos 0).ts - s.position.ts : Int) / 1000)|) * q ^ n + (4 * δ + (M + δ) / 10 ^ 12) / (1 - q) ∧
    |(abIterateF R P allowed s pos n).position.y - y| ≤
      24 * (|s.position.y - y| + |s.speedY * (((pos 0).ts - s.position.ts : Int) / 1000)|) * q ^ n + (4 * δ + (M + δ) / 10 ^ 12) / (1 - q) := by
  have hδ : 0 ≤ δ := (abs_nonneg _).trans (hn.x 0)
  have hr : Real.sqrt (1 - P.alpha) ≤ 955 / 1000 := by
    rw [Real.sqrt_le_left (by norm_num)]; norm_num; linarith
  have hq1 : q < 96 / 100 := by rw [hq]; norm_num at hr ⊢; linarith
  have hq0 : 0 ≤ q := by rw [hq]; have := Real.sqrt_nonneg (1 - P.alpha); positivity
  refine ⟨hq1, all_steps R P hacc h0 h1 (μ := 1) zero_le_one ?_ hq0 ?_ allowed s hM hxM hyM
    (div_nonneg (by positivity) (by linarith)) ?_ pos hn hi' n⟩
  · intro r hr1 hr2 e w
    rw [show r = 1 by linarith, one_mul, one_mul]
  · rw [one_mul, hq]; norm_num
  · rw [div_mul_cancel₀ _ (by linarith : (1 : ℝ) - q ≠ 0), one_mul]
    have : 0 ≤ M + δ := by linarith
    norm_num
    linarith

/-- The gain of the constructor in floating point. -/
theorem alpha_near (cs : CommonSettings) : |(abParamsF R cs).alpha - (abParams cs).alpha| ≤ 10 * u := by
  set k := min 1 (max 0 cs.smoothing) with hk
  have k0 : 0 ≤ k := le_min zero_le_one (le_max_left _ _)
  have k1 : k ≤ 1 := min_le_left _ _
  have hu := u_pos
  have hus := u_small
  have one : ∀ {z : ℝ}, |z| ≤ 1 → |R.rnd z - z| ≤ 2 * u := by
    intro z hz
    have := rnd_one R (k := 0) (c := 1) (S := 1) (x' := z) (x := z) (by norm_num) le_rfl le_rfl (by simp) (by linarith)
    linarith
  have m1 := one (z := 1 / 10) (by norm_num)
  have m2 := one (z := 9 / 10) (by norm_num)
  have m3 := one (z := 1 - k) (by rw [abs_of_nonneg (by linarith)]; linarith)
  have p1 : |R.rnd (R.rnd (1 / 10) * k) - 1 / 10 * k| ≤ (2 * k + k / 10 + 1 / 20) * u + u / 2 := by
    have q1 : |R.rnd (1 / 10) * k - 1 / 10 * k| ≤ 2 * u * k := by
      rw [← sub_mul, abs_mul, abs_of_nonneg k0]
      exact mul_le_mul_of_nonneg_right m1 k0
    have q2 := R.near (R.rnd (1 / 10) * k)
    have q3 := tiny_share
    have q4 := tiny_pos
    have q5 := abs_sub_abs_le_abs_sub (R.rnd (1 / 10) * k) (1 / 10 * k)
    rw [abs_of_nonneg (by linarith : 0 ≤ 1 / 10 * k)] at q5
    have q6 : u * |R.rnd (1 / 10) * k| ≤ u * (k / 10 + 1 / 20) := by
      refine mul_le_mul_of_nonneg_left ?_ hu.le
      have : 2 * u * k ≤ 2 * u * 1 := mul_le_mul_of_nonneg_left k1 (by positivity)
      linarith
    have q7 := abs_sub_le (R.rnd (R.rnd (1 / 10) * k)) (R.rnd (1 / 10) * k) (1 / 10 * k)
    linarith
  have p2 : |R.rnd (R.rnd (9 / 10) * R.rnd (1 - k)) - 9 / 10 * (1 - k)| ≤ (2 * (1 - k) + 2) * u + u + u / 2 := by
    have q1 : |R.rnd (9 / 10) * R.rnd (1 - k) - 9 / 10 * (1 - k)| ≤ 2 * u * (1 - k) + 95 / 100 * (2 * u) := by
      have e : R.rnd (9 / 10) * R.rnd (1 - k) - 9 / 10 * (1 - k) =
          (R.rnd (9 / 10) - 9 / 10) * (1 - k) + R.rnd (9 / 10) * (R.rnd (1 - k) - (1 - k)) := by ring
      rw [e]
      have a1 := abs_add_le ((R.rnd (9 / 10) - 9 / 10) * (1 - k)) (R.rnd (9 / 10) * (R.rnd (1 - k) - (1 - k)))
      rw [abs_mul, abs_mul, abs_of_nonneg (by linarith : 0 ≤ 1 - k)] at a1
      have a2 : |R.rnd (9 / 10)| ≤ 95 / 100 := by
        obtain ⟨b1, b2⟩ := abs_le.mp m2
        rw [abs_le]; constructor <;> linarith
      have a3 := mul_le_mul_of_nonneg_right m2 (by linarith : 0 ≤ 1 - k)
      have a4 := mul_le_mul a2 m3 (abs_nonneg _) (by norm_num)
      linarith
    have q2 := R.near (R.rnd (9 / 10) * R.rnd (1 - k))
    have q3 := tiny_share
    have q4 := tiny_pos
    have q5 := abs_sub_abs_le_abs_sub (R.rnd (9 / 10) * R.rnd (1 - k)) (9 / 10 * (1 - k))
    rw [abs_of_nonneg (by linarith : 0 ≤ 9 / 10 * (1 - k))] at q5
    have q6 : u * |R.rnd (9 / 10) * R.rnd (1 - k)| ≤ u * 1 := by
      refine mul_le_mul_of_nonneg_left ?_ hu.le
      have : 2 * u * (1 - k) ≤ 2 * u * 1 := mul_le_mul_of_nonneg_left (by linarith) (by positivity)
      linarith
    have q7 := abs_sub_le (R.rnd (R.rnd (9 / 10) * R.rnd (1 - k))) (R.rnd (9 / 10) * R.rnd (1 - k)) (9 / 10 * (1 - k))
    linarith
  have p3 : |R.rnd (R.rnd (1 / 10) * k) + R.rnd (R.rnd (9 / 10) * R.rnd (1 - k)) - (1 / 10 * k + 9 / 10 * (1 - k))| ≤ 8 * u * 1 := by
    have a1 := abs_add_le (R.rnd (R.rnd (1 / 10) * k) - 1 / 10 * k) (R.rnd (R.rnd (9 / 10) * R.rnd (1 - k)) - 9 / 10 * (1 - k))
    rw [show R.rnd (R.rnd (1 / 10) * k) - 1 / 10 * k + (R.rnd (R.rnd (9 / 10) * R.rnd (1 - k)) - 9 / 10 * (1 - k)) =
      R.rnd (R.rnd (1 / 10) * k) + R.rnd (R.rnd (9 / 10) * R.rnd (1 - k)) - (1 / 10 * k + 9 / 10 * (1 - k)) by ring] at a1
    have a2 : (2 * k + k / 10 + 1 / 20) * u + u / 2 + ((2 * (1 - k) + 2) * u + u + u / 2) ≤ 8 * u * 1 := by
      have : k * u ≤ 1 * u := mul_le_mul_of_nonneg_right k1 hu.le
      linarith
    linarith
  have p4 := rnd_one R (c := 1) (S := 1) (by norm_num) (by norm_num) le_rfl p3
    (by rw [abs_of_nonneg (by linarith)]; linarith)
  show |R.rnd (R.rnd (R.rnd (1 / 10) * k) + R.rnd (R.rnd (9 / 10) * R.rnd (1 - k))) - (MIN_ALPHA * k + MAX_ALPHA * (1 - k))| ≤ 10 * u
  unfold MIN_ALPHA MAX_ALPHA
  linarith

/-- **C156.** Whatever the settings say, the gain that the constructor computes is one that `C156_near` allows. -/
theorem C156_gain (cs : CommonSettings) : 9 / 100 ≤ (abParamsF R cs).alpha ∧ (abParamsF R cs).alpha ≤ 91 / 100 := by
  obtain ⟨h1, h2⟩ := abs_le.mp (alpha_near R cs)
  have hus := u_small
  have : 1 / 10 ≤ (abParams cs).alpha ∧ (abParams cs).alpha ≤ 9 / 10 := by
    have k0 : 0 ≤ min 1 (max 0 cs.smoothing) := le_min zero_le_one (le_max_left _ _)
    have k1 : min 1 (max 0 cs.smoothing) ≤ 1 := min_le_left _ _
    simp only [abParams, MIN_ALPHA, MAX_ALPHA]
    constructor <;> linarith
  constructor <;> linarith [this.1, this.2]

/-- **C156, figures.** The default settings, one measurement a second of a place whose coordinates are at most a kilometre: if the smoother
starts at rest and not more than a kilometre off, then from the hundredth measurement on it shows the place up to fourteen times the
error of the measurements and a ten-millionth of a metre. -/
theorem C156_figures (allowed : ℕ → ℝ → ℝ → Prop) (s : AbState) (x y δ : ℝ) (pos : ℕ → Position) (hv : s.speedX = 0 ∧ s.speedY = 0)
    (hx : |x| ≤ 1000) (hy : |y| ≤ 1000) (hs : |s.position.x - x| ≤ 1000 ∧ |s.position.y - y| ≤ 1000) (hn : Near x y δ pos)
    (hts : ∀ n, (pos n).ts = s.position.ts + 1000 * (n + 1)) (n : ℕ) (h100 : 100 ≤ n) :
    |(abIterateF R (abParamsF R {}) allowed s pos n).position.x - x| ≤ 14 * δ + 1 / 10 ^ 7 ∧
    |(abIterateF R (abParamsF R {}) allowed s pos n).position.y - y| ≤ 14 * δ + 1 / 10 ^ 7 := by
  obtain ⟨g0, g1⟩ := C156_gain R {}
  obtain ⟨a1, a2⟩ := abs_le.mp (alpha_near R {})
  have hus := u_small
  have hex : (abParams {}).alpha = 1 / 2 := by simp [abParams, MIN_ALPHA, MAX_ALPHA]; norm_num
  rw [hex] at a1 a2
  set P := abParamsF R {} with hP
  have hb : ∀ n, (pos n).ts - before s.position.ts pos n = 1000 := by
    intro n
    cases n with
    | zero => rw [hts]; simp [before]
    | succ n => rw [hts]; simp only [before]; rw [hts]; push_cast; ring
  have hstep : ∀ n, (pos (n + 1)).ts - (pos n).ts = 1000 := fun n => hb (n + 1)
  have hint : Intervals s.position.ts 1 1 pos :=
    ⟨fun n => by have := hb n; omega, fun n => by rw [hb, hstep]; norm_num, fun n => by rw [hb, hstep]; norm_num⟩
  obtain ⟨-, r1, r2⟩ := C156_regular R P rfl g0 g1 allowed s (M := 1000) (by norm_num) hx hy pos hn hint n rfl
  set q := Real.sqrt (1 - P.alpha) + 1 / 10 ^ 11 with hqd
  have hq1 : q ≤ 7075 / 10000 := by
    have : Real.sqrt (1 - P.alpha) ≤ 7074 / 10000 := by
      rw [Real.sqrt_le_left (by norm_num)]; norm_num at a1 hus ⊢; linarith
    rw [hqd]; norm_num at this ⊢; linarith
  have hq0 : 0 ≤ q := by rw [hqd]; have := Real.sqrt_nonneg (1 - P.alpha); positivity
  rw [hv.1, zero_mul, abs_zero, add_zero] at r1
  rw [hv.2, zero_mul, abs_zero, add_zero] at r2
  have hqn : q ^ n ≤ 1 / 10 ^ 13 := by
    calc q ^ n ≤ q ^ 100 := pow_le_pow_of_le_one hq0 (by linarith) h100
      _ ≤ (7075 / 10000) ^ 100 := pow_le_pow_left₀ hq0 hq1 100
      _ ≤ _ := by norm_num
  have hqn0 : 0 ≤ q ^ n := pow_nonneg hq0 n
  have hδ : 0 ≤ δ := (abs_nonneg _).trans (hn.x 0)
  have hG : (4 * δ + (1000 + δ) / 10 ^ 12) / (1 - q) ≤ 14 * δ + 5 / 10 ^ 9 := by
    rw [div_le_iff₀ (by linarith)]
    have := mul_le_mul_of_nonneg_left (by linarith : 2925 / 10000 ≤ 1 - q) (by positivity : 0 ≤ 14 * δ + 5 / 10 ^ 9)
    norm_num at this ⊢
    linarith
  have fin : ∀ {e E : ℝ}, |e| ≤ 1000 → E ≤ 24 * |e| * q ^ n + (4 * δ + (1000 + δ) / 10 ^ 12) / (1 - q) → E ≤ 14 * δ + 1 / 10 ^ 7 := by
    intro e E he hE
    have := mul_le_mul (by linarith : 24 * |e| ≤ 24000) hqn hqn0 (by norm_num)
    norm_num at this hG hE ⊢
    linarith
  exact ⟨fin hs.1 r1, fin hs.2 r2⟩

/-- The figures hold for rounding to nearest and a device that is measured ten metres off its last place. -/
example : |(abIterateF nearest (abParamsF nearest {}) (fun _ _ _ => True) ⟨true, 0, 0, ⟨5, 5, "", 1, 0, false, .INDOOR, 0⟩⟩
    (fun n => ⟨15, 5, "", 1, 1000 * (n + 1), false, .INDOOR, 0⟩) 100).position.x - 15| ≤ 1 / 10 ^ 7 := by
  have := (C156_figures nearest (fun _ _ _ => True) ⟨true, 0, 0, ⟨5, 5, "", 1, 0, false, .INDOOR, 0⟩⟩ 15 5 0
    (fun n => ⟨15, 5, "", 1, 1000 * (n + 1), false, .INDOOR, 0⟩) ⟨rfl, rfl⟩ (by norm_num) (by norm_num) (by norm_num)
    ⟨by simp, by simp⟩ (by intro n; simp) 100 le_rfl).1
  simpa using this

/-- With the default gain, intervals that grow by a quarter at most and shrink at will are mild by a margin of nine hundredths. -/
theorem calm_default : Calm (9 / 100) (1 / 2) 0 ∧ Calm (9 / 100) (1 / 2) (5 / 4) := by
  unfold Calm
  constructor <;> norm_num

end Verif.Fp
