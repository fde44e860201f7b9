import Verif.Smooth.AbProps
import Mathlib.Analysis.Complex.Norm
import Mathlib.Tactic.IntervalCases

/-!
# C122: the alpha-beta smoother with irregular intervals
-/

namespace Verif.Smooth

/-! ## Specification -/

/-- The measurements are at most `δ` away from `(x, y)` in each coordinate; everything else may vary. -/
structure Near (x y δ : ℝ) (pos : ℕ → Position) : Prop where
  x : ∀ n, |(pos n).x - x| ≤ δ
  y : ∀ n, |(pos n).y - y| ≤ δ

/-- The time of the previous measurement, for the first one a given time. -/
def before (t0 : Int) (pos : ℕ → Position) : ℕ → Int
  | 0 => t0
  | n + 1 => (pos n).ts

/-- Each measurement is newer than the previous one, and each interval is between `lo` and `hi` times the previous interval. -/
structure Intervals (t0 : Int) (lo hi : ℝ) (pos : ℕ → Position) : Prop where
  later : ∀ n, before t0 pos n < (pos n).ts
  lo : ∀ n, lo * ((pos n).ts - before t0 pos n : Int) ≤ ((pos (n + 1)).ts - (pos n).ts : Int)
  hi : ∀ n, (((pos (n + 1)).ts - (pos n).ts : Int) : ℝ) ≤ hi * ((pos n).ts - before t0 pos n : Int)

/-- The ratio `r` of successive intervals is mild for the gain `α`. -/
def Mild (α r : ℝ) : Prop := (1 - α) * r ^ 2 - 2 * (1 - α) ^ 2 * r + (1 - α) + (1 - α) ^ 2 < 1

/-! ## A norm -/

/-- The norm of an error `e` and the speed error times the interval `w`. -/
noncomputable def size (a e w : ℝ) : ℝ := ‖(⟨e, Real.sqrt (1 - a) * ((2 - a) / a * w - e)⟩ : ℂ)‖

theorem size_nonneg (a e w : ℝ) : 0 ≤ size a e w := norm_nonneg _

theorem size_error (a e w : ℝ) : |e| ≤ size a e w := Complex.abs_re_le_norm ⟨e, _⟩

theorem size_add (a e w e' w' : ℝ) : size a (e + e') (w + w') ≤ size a e w + size a e' w' := by
  unfold size
  refine le_trans (le_of_eq ?_) (norm_add_le _ _)
  congr 1
  apply Complex.ext
  · rfl
  · simp only [Complex.add_im]; ring

theorem size_sq {a : ℝ} (h0 : 0 < a) (h1 : a < 1) (e w : ℝ) : size a e w ^ 2 = ((2 - a) / a) ^ 2 * energy a e w := by
  have key : ((2 - a) / a) ^ 2 * energy a e w = e ^ 2 + (1 - a) * ((2 - a) / a * w - e) ^ 2 := by
    have h2 : (0 : ℝ) < 2 - a := by linarith
    unfold energy
    field_simp
    ring
  unfold size
  rw [key, Complex.sq_norm, Complex.normSq_apply]
  have : Real.sqrt (1 - a) * Real.sqrt (1 - a) = 1 - a := Real.mul_self_sqrt (by linarith)
  dsimp only
  calc e * e + Real.sqrt (1 - a) * ((2 - a) / a * w - e) * (Real.sqrt (1 - a) * ((2 - a) / a * w - e))
      = e ^ 2 + (Real.sqrt (1 - a) * Real.sqrt (1 - a)) * ((2 - a) / a * w - e) ^ 2 := by ring
    _ = _ := by rw [this]

theorem size_le {a : ℝ} (h0 : 0 < a) (h1 : a < 1) {e w e' w' r : ℝ} (hr : 0 ≤ r) (h : energy a e' w' ≤ r * energy a e w) :
    size a e' w' ≤ Real.sqrt r * size a e w := by
  refine (abs_le_of_sq_le_sq' ?_ (mul_nonneg (Real.sqrt_nonneg _) (size_nonneg _ _ _))).2
  rw [mul_pow, Real.sq_sqrt hr, size_sq h0 h1, size_sq h0 h1]
  have := mul_le_mul_of_nonneg_left h (sq_nonneg ((2 - a) / a))
  linarith

theorem size_shift {a : ℝ} (h0 : 0 < a) (h1 : a < 1) (d : ℝ) : size a d 0 ≤ 2 * |d| := by
  have h : size a d 0 ^ 2 = (2 - a) * d ^ 2 := by
    rw [size_sq h0 h1]
    have h2 : (0 : ℝ) < 2 - a := by linarith
    unfold energy
    field_simp
    ring
  refine abs_le_of_sq_le_sq' ?_ (by positivity) |>.2
  rw [h, mul_pow, sq_abs]
  nlinarith [sq_nonneg d]

theorem size_bound {a : ℝ} (h0 : 1 / 10 ≤ a) (h1 : a ≤ 9 / 10) (e w : ℝ) : size a e w ≤ 20 * (|e| + |w|) := by
  have e1 := size_add a e 0 0 w
  rw [add_zero, zero_add] at e1
  have e2 := size_shift (by linarith : 0 < a) (by linarith : a < 1) e
  have e3 : size a 0 w ≤ 20 * |w| := by
    refine abs_le_of_sq_le_sq' ?_ (by positivity) |>.2
    rw [size_sq (by linarith) (by linarith), mul_pow, sq_abs]
    unfold energy
    have h2 : (2 - a) / a ≤ 19 := by rw [div_le_iff₀ (by linarith)]; linarith
    have h3 : 0 ≤ (2 - a) / a := div_nonneg (by linarith) (by linarith)
    have h4 : ((2 - a) / a) ^ 2 ≤ 19 ^ 2 := pow_le_pow_left₀ h3 h2 2
    have h5 : (1 - a) * w ^ 2 ≤ 1 * w ^ 2 := mul_le_mul_of_nonneg_right (by linarith) (sq_nonneg w)
    have h6 : 0 ≤ (1 - a) * w ^ 2 := mul_nonneg (by linarith) (sq_nonneg w)
    have h7 := mul_le_mul h4 h5 h6 (by norm_num)
    have h8 := sq_nonneg w
    ring_nf at h7 ⊢
    linarith
  have := abs_nonneg e
  linarith

/-- A mild change of the interval does not undo the contraction of a step. -/
theorem mild_scale {a lo hi : ℝ} (h0 : 0 < a) (h1 : a < 1) (hlo : Mild a lo) (hhi : Mild a hi) :
    ∃ g, 0 ≤ g ∧ g < 1 ∧ ∀ r, lo ≤ r → r ≤ hi → ∀ e w, (1 - a) * energy a e (r * w) ≤ g * energy a e w := by
  set c := 1 - a with hc
  have hc0 : 0 < c := by linarith
  have hc1 : c < 1 := by linarith
  have ha : a = 1 - c := by linarith
  set F : ℝ → ℝ := fun r => 1 - c - c ^ 2 - c * r ^ 2 + 2 * c ^ 2 * r with hF
  have hFlo : 0 < F lo := by unfold Mild at hlo; rw [← hc] at hlo; simp only [hF]; linarith
  have hFhi : 0 < F hi := by unfold Mild at hhi; rw [← hc] at hhi; simp only [hF]; linarith
  set m := min (F lo) (F hi) with hm
  have hm0 : 0 < m := lt_min hFlo hFhi
  have hFr : ∀ r, lo ≤ r → r ≤ hi → m ≤ F r := by
    intro r hr1 hr2
    -- concavity
    by_cases hlt : lo < hi
    · have e : F r = ((hi - r) * F lo + (r - lo) * F hi) / (hi - lo) + c * (r - lo) * (hi - r) := by
        have : hi - lo ≠ 0 := by linarith
        simp only [hF]
        field_simp
        ring
      rw [e]
      have p1 : 0 ≤ c * (r - lo) * (hi - r) := mul_nonneg (mul_nonneg hc0.le (by linarith)) (by linarith)
      have p2 : m ≤ ((hi - r) * F lo + (r - lo) * F hi) / (hi - lo) := by
        rw [le_div_iff₀ (by linarith)]
        have q1 := mul_le_mul_of_nonneg_left (min_le_left (F lo) (F hi)) (by linarith : 0 ≤ hi - r)
        have q2 := mul_le_mul_of_nonneg_left (min_le_right (F lo) (F hi)) (by linarith : 0 ≤ r - lo)
        rw [← hm] at q1 q2
        calc m * (hi - lo) = (hi - r) * m + (r - lo) * m := by ring
          _ ≤ _ := add_le_add q1 q2
      linarith
    · have : r = lo := by linarith
      rw [this]
      exact min_le_left _ _
  set g := max ((1 + c) / 2) (1 - m / 2) with hg
  have hg1 : g < 1 := max_lt (by linarith) (by linarith)
  have hgc : c < g := lt_of_lt_of_le (by linarith) (le_max_left _ _)
  have hgm : 1 - m / 2 ≤ g := le_max_right _ _
  refine ⟨g, by linarith, hg1, fun r hr1 hr2 e w => ?_⟩
  -- the discriminant
  have hdisc : 0 ≤ (1 + c) * (g - c) * (g - c * r ^ 2) - c * (g - c * r) ^ 2 := by
    have e : (1 + c) * (g - c) * (g - c * r ^ 2) - c * (g - c * r) ^ 2 =
        F r - (1 - g ^ 2) + (1 - g) * (c * ((1 + r ^ 2) + c * (1 - r) ^ 2)) := by
      simp only [hF]; ring
    rw [e]
    have p1 := hFr r hr1 hr2
    have p2 : 1 - g ^ 2 ≤ 2 * (1 - g) := by nlinarith [sq_nonneg (1 - g)]
    have p3 : 0 ≤ (1 - g) * (c * ((1 + r ^ 2) + c * (1 - r) ^ 2)) :=
      mul_nonneg (by linarith) (mul_nonneg hc0.le (by positivity))
    linarith
  -- completing the square
  have h2a : (0 : ℝ) < 1 + c := by linarith
  have hid : g * energy a e w - c * energy a e (r * w) =
      ((a / (1 + c)) ^ 2 * ((1 + c) * (g - c) * e - (1 + c) * (c / a) * (g - c * r) * w) ^ 2 +
        c * ((1 + c) * (g - c) * (g - c * r ^ 2) - c * (g - c * r) ^ 2) * w ^ 2) / ((1 + c) * (g - c)) := by
    have hgc' : g - c ≠ 0 := by linarith
    have ha' : (1 : ℝ) - c ≠ 0 := by linarith
    have h3 : (2 : ℝ) - (1 - c) = 1 + c := by ring
    unfold energy
    rw [ha, h3]
    field_simp
    ring
  have : 0 ≤ g * energy a e w - c * energy a e (r * w) := by
    rw [hid]
    have p1 : 0 < (1 + c) * (g - c) := mul_pos h2a (by linarith)
    have p2 : 0 ≤ c * ((1 + c) * (g - c) * (g - c * r ^ 2) - c * (g - c * r) ^ 2) * w ^ 2 :=
      mul_nonneg (mul_nonneg hc0.le hdisc) (sq_nonneg _)
    positivity
  linarith

/-! ## C122 -/

/-- One step, with a measurement that is off by at most `δ`. -/
theorem near_step (P : AbParams) (hacc : P.useAccuracyForSmoothing = false)
    (h0 : 1 / 10 ≤ P.alpha) (h1 : P.alpha ≤ 9 / 10) (allowed : ℝ → ℝ → Prop) (s : AbState) (pos : Position)
    (hts : s.position.ts < pos.ts) {x y δ : ℝ} (hx : |pos.x - x| ≤ δ) (hy : |pos.y - y| ≤ δ) :
    let t : ℝ := ((pos.ts - s.position.ts : Int) : ℝ) / 1000
    let s' := (abSmooth P allowed s pos).2
    s'.position.ts = pos.ts ∧
    size P.alpha (s'.position.x - x) (s'.speedX * t) ≤ Real.sqrt (1 - P.alpha) * size P.alpha (s.position.x - x) (s.speedX * t) + 4 * δ ∧
    size P.alpha (s'.position.y - y) (s'.speedY * t) ≤ Real.sqrt (1 - P.alpha) * size P.alpha (s.position.y - y) (s.speedY * t) + 4 * δ := by
  intro t s'
  have ha0 : 0 < P.alpha := by linarith
  have ha1 : P.alpha < 1 := by linarith
  obtain ⟨c1, c2, c3⟩ := converge_step P hacc h0 h1 allowed s pos (pos.ts - s.position.ts) (by omega) (by ring)
  have main : ∀ {z p a a' v v' : ℝ}, |p - z| ≤ δ →
      energy P.alpha (a' - p) (v' * t) ≤ (1 - P.alpha) * energy P.alpha (a - p) (v * t) →
      size P.alpha (a' - z) (v' * t) ≤ Real.sqrt (1 - P.alpha) * size P.alpha (a - z) (v * t) + 4 * δ := by
    intro z p a a' v v' hp he
    have e1 := size_le ha0 ha1 (by linarith : 0 ≤ 1 - P.alpha) he
    have e2 := size_add P.alpha (a' - p) (v' * t) (p - z) 0
    have e3 := size_add P.alpha (a - z) (v * t) (z - p) 0
    have e4 := size_shift ha0 ha1 (p - z)
    have e5 := size_shift ha0 ha1 (z - p)
    rw [abs_sub_comm z p] at e5
    rw [add_zero, sub_add_sub_cancel] at e2 e3
    have hs1 : Real.sqrt (1 - P.alpha) ≤ 1 := by
      rw [Real.sqrt_le_left (by norm_num)]; linarith
    have hs0 := Real.sqrt_nonneg (1 - P.alpha)
    have hδ : 0 ≤ δ := (abs_nonneg _).trans hp
    calc size P.alpha (a' - z) (v' * t) ≤ Real.sqrt (1 - P.alpha) * size P.alpha (a - p) (v * t) + 2 * δ := by linarith
      _ ≤ Real.sqrt (1 - P.alpha) * (size P.alpha (a - z) (v * t) + 2 * δ) + 2 * δ := by
        have := mul_le_mul_of_nonneg_left (by linarith : size P.alpha (a - p) (v * t) ≤ size P.alpha (a - z) (v * t) + 2 * δ) hs0
        linarith
      _ ≤ _ := by nlinarith
  exact ⟨c1, main hx c2, main hy c3⟩

/-- **C122.** Irregular intervals and inexact measurements: if the ratios of successive intervals lie between two mild ones and the
measurements are at most `δ` off a fixed place, then the error of the smoothed position is at most a constant times `δ`, apart from a
term that vanishes geometrically: at first twenty times the error of the state and the way at the speed of the state until the first
measurement. The constant and the rate depend only on the gain and the bounds for the ratios. This is from any state, whatever the
speed constraint, the barriers and long intervals do. -/
theorem C122_near (P : AbParams) (hacc : P.useAccuracyForSmoothing = false) (h0 : 1 / 10 ≤ P.alpha) (h1 : P.alpha ≤ 9 / 10)
    {lo hi : ℝ} (hlo : Mild P.alpha lo) (hhi : Mild P.alpha hi) :
    ∃ γ G, 0 ≤ γ ∧ γ < 1 ∧ 0 ≤ G ∧ ∀ (allowed : ℕ → ℝ → ℝ → Prop) (s : AbState) (x y δ : ℝ) (pos : ℕ → Position),
      Near x y δ pos → Intervals s.position.ts lo hi pos → ∀ n,
        |(abIterate P allowed s pos n).position.x - x| ≤
          20 * (|s.position.x - x| + |s.speedX * (((pos 0).ts - s.position.ts : Int) / 1000)|) * γ ^ n + G * δ ∧
        |(abIterate P allowed s pos n).position.y - y| ≤
          20 * (|s.position.y - y| + |s.speedY * (((pos 0).ts - s.position.ts : Int) / 1000)|) * γ ^ n + G * δ := by
  have ha0 : 0 < P.alpha := by linarith
  have ha1 : P.alpha < 1 := by linarith
  have hc : 0 < 1 - P.alpha := by linarith
  obtain ⟨g, hg0, hg1, hg⟩ := mild_scale ha0 ha1 hlo hhi
  set γ := Real.sqrt g with hγ
  have hγ0 : 0 ≤ γ := Real.sqrt_nonneg _
  have hγ1 : γ < 1 := by rw [hγ, Real.sqrt_lt' (by norm_num)]; simpa using hg1
  set μ := Real.sqrt (g / (1 - P.alpha)) with hμ
  have hμ0 : 0 ≤ μ := Real.sqrt_nonneg _
  have hμγ : μ * Real.sqrt (1 - P.alpha) = γ := by
    rw [hμ, ← Real.sqrt_mul (by positivity), div_mul_cancel₀ _ hc.ne']
  have hscale : ∀ r, lo ≤ r → r ≤ hi → ∀ e w, size P.alpha e (r * w) ≤ μ * size P.alpha e w := by
    intro r hr1 hr2 e w
    refine size_le ha0 ha1 (by positivity) ?_
    have := hg r hr1 hr2 e w
    rw [div_mul_eq_mul_div, le_div_iff₀ hc]
    linarith
  refine ⟨γ, 4 * μ / (1 - γ), hγ0, hγ1, div_nonneg (by linarith) (by linarith), fun allowed s x y δ pos hn hi' => ?_⟩
  have hδ : 0 ≤ δ := (abs_nonneg _).trans (hn.x 0)
  set T : ℕ → ℝ := fun n => (((pos n).ts - before s.position.ts pos n : Int) : ℝ) / 1000 with hT
  set X := size P.alpha (s.position.x - x) (s.speedX * T 0) with hX
  set Y := size P.alpha (s.position.y - y) (s.speedY * T 0) with hY
  set G := 4 * μ / (1 - γ) with hG
  have hG0 : 0 ≤ G := div_nonneg (by linarith) (by linarith)
  have hGγ : γ * (G * δ) + 4 * μ * δ = G * δ := by
    rw [hG]
    have : (1 : ℝ) - γ ≠ 0 := by linarith
    field_simp
    ring
  have inv : ∀ n, (abIterate P allowed s pos n).position.ts = before s.position.ts pos n ∧
      size P.alpha ((abIterate P allowed s pos n).position.x - x) ((abIterate P allowed s pos n).speedX * T n) ≤ X * γ ^ n + G * δ ∧
      size P.alpha ((abIterate P allowed s pos n).position.y - y) ((abIterate P allowed s pos n).speedY * T n) ≤ Y * γ ^ n + G * δ := by
    intro n
    induction n with
    | zero =>
      have hGδ : 0 ≤ G * δ := mul_nonneg hG0 hδ
      refine ⟨rfl, ?_, ?_⟩ <;> rw [pow_zero, mul_one]
      · show X ≤ _; linarith
      · show Y ≤ _; linarith
    | succ n ih =>
      obtain ⟨i1, i2, i3⟩ := ih
      obtain ⟨c1, c2, c3⟩ := near_step P hacc h0 h1 (allowed n) (abIterate P allowed s pos n) (pos n)
        (by rw [i1]; exact hi'.later n) (hn.x n) (hn.y n)
      rw [i1] at c2 c3
      have hTn : 0 < T n := by
        have : (0 : ℝ) < (((pos n).ts - before s.position.ts pos n : Int) : ℝ) := by
          have := hi'.later n
          exact_mod_cast (by omega : 0 < (pos n).ts - before s.position.ts pos n)
        exact div_pos this (by norm_num)
      set r := T (n + 1) / T n with hr
      have hrT : T (n + 1) = r * T n := by rw [hr, div_mul_cancel₀ _ hTn.ne']
      have hr1 : lo ≤ r := by
        rw [hr, le_div_iff₀ hTn]
        simp only [hT]
        rw [← mul_div_assoc]
        exact div_le_div_of_nonneg_right (hi'.lo n) (by norm_num)
      have hr2 : r ≤ hi := by
        rw [hr, div_le_iff₀ hTn]
        simp only [hT]
        rw [← mul_div_assoc]
        exact div_le_div_of_nonneg_right (hi'.hi n) (by norm_num)
      have fin : ∀ {e v e0 w0 E : ℝ}, size P.alpha e (v * T n) ≤ Real.sqrt (1 - P.alpha) * size P.alpha e0 w0 + 4 * δ →
          size P.alpha e0 w0 ≤ E * γ ^ n + G * δ → size P.alpha e (v * T (n + 1)) ≤ E * γ ^ (n + 1) + G * δ := by
        intro e v e0 w0 E q1 q2
        have q3 : v * T (n + 1) = r * (v * T n) := by rw [hrT]; ring
        rw [q3]
        refine (hscale r hr1 hr2 _ _).trans ?_
        have q4 := mul_le_mul_of_nonneg_left q1 hμ0
        have q5 := mul_le_mul_of_nonneg_left q2 hγ0
        have q6 : μ * (Real.sqrt (1 - P.alpha) * size P.alpha e0 w0 + 4 * δ) = γ * size P.alpha e0 w0 + 4 * μ * δ := by
          rw [← hμγ]; ring
        rw [q6] at q4
        rw [pow_succ]
        linarith
      exact ⟨c1, fin c2 i2, fin c3 i3⟩
  intro n
  obtain ⟨-, i2, i3⟩ := inv n
  have hγn : 0 ≤ γ ^ n := pow_nonneg hγ0 n
  have x1 := mul_le_mul_of_nonneg_right (size_bound h0 h1 (s.position.x - x) (s.speedX * T 0)) hγn
  have y1 := mul_le_mul_of_nonneg_right (size_bound h0 h1 (s.position.y - y) (s.speedY * T 0)) hγn
  have x2 := (size_error _ _ _).trans i2
  have y2 := (size_error _ _ _).trans i3
  exact ⟨x2.trans (by show _ ≤ 20 * (|s.position.x - x| + |s.speedX * T 0|) * γ ^ n + G * δ; linarith),
    y2.trans (by show _ ≤ 20 * (|s.position.y - y| + |s.speedY * T 0|) * γ ^ n + G * δ; linarith)⟩

/-- **C122.** A stationary target and mild irregularity: the smoothed position converges to the target. -/
theorem C122_converges (P : AbParams) (hacc : P.useAccuracyForSmoothing = false) (h0 : 1 / 10 ≤ P.alpha) (h1 : P.alpha ≤ 9 / 10)
    {lo hi : ℝ} (hlo : Mild P.alpha lo) (hhi : Mild P.alpha hi) (allowed : ℕ → ℝ → ℝ → Prop) (s : AbState) (x y : ℝ)
    (pos : ℕ → Position) (hp : Near x y 0 pos) (hi' : Intervals s.position.ts lo hi pos) :
    Filter.Tendsto (fun n => (abIterate P allowed s pos n).position.x) Filter.atTop (nhds x) ∧
    Filter.Tendsto (fun n => (abIterate P allowed s pos n).position.y) Filter.atTop (nhds y) := by
  obtain ⟨γ, G, g0, g1, -, h⟩ := C122_near P hacc h0 h1 hlo hhi
  have hC := h allowed s x y 0 pos hp hi'
  have hlim : ∀ C : ℝ, Filter.Tendsto (fun n : ℕ => C * γ ^ n + G * 0) Filter.atTop (nhds 0) := by
    intro C
    have := (tendsto_pow_atTop_nhds_zero_of_lt_one g0 g1).const_mul C
    simpa using this
  exact ⟨tendsto_sub_nhds_zero_iff.mp (squeeze_zero_norm (fun n => (hC n).1) (hlim _)),
    tendsto_sub_nhds_zero_iff.mp (squeeze_zero_norm (fun n => (hC n).2) (hlim _))⟩

/-- With the default gain of one half, intervals may shrink at will and grow by a third at each step. -/
theorem mild_default : Mild (1 / 2) 0 ∧ Mild (1 / 2) (4 / 3) ∧ ∀ a : ℝ, 1 / 10 ≤ a → a ≤ 9 / 10 → Mild a 1 := by
  unfold Mild
  refine ⟨by norm_num, by norm_num, fun a h0 h1 => ?_⟩
  nlinarith [mul_pos (by linarith : 0 < a) (by linarith : 0 < a)]

/-! ## Intervals that are not mild -/

/-- The pauses before the measurements in seconds: three times one second, twice ten seconds, and so on. -/
def pause (n : ℕ) : Int := if n % 5 < 3 then 1 else 10

/-- A device at rest at `(x, y)`, measured exactly after these pauses. -/
structure Stutter (t0 : Int) (x y : ℝ) (pos : ℕ → Position) : Prop where
  x : ∀ n, (pos n).x = x
  y : ∀ n, (pos n).y = y
  ts : ∀ n, (pos n).ts = before t0 pos n + 1000 * pause n

/-- One step of the error and the speed with the gain of one half. -/
noncomputable def linStep (t : ℝ) (s : ℝ × ℝ) : ℝ × ℝ := ((s.1 + s.2 * t) / 2, s.2 - (s.1 + s.2 * t) / (6 * t))

/-- The errors and speeds from an error of 1 at rest. -/
noncomputable def lin : ℕ → ℝ × ℝ
  | 0 => (1, 0)
  | n + 1 => linStep (pause n) (lin n)

theorem lin_zero : lin 0 = (1, 0) := rfl

theorem lin_succ (n : ℕ) : lin (n + 1) = linStep (pause n) (lin n) := rfl

theorem lin_cycle (n : ℕ) : lin (5 * (n + 1)) =
    (-923 / 648 * (lin (5 * n)).1 + 1789 / 648 * (lin (5 * n)).2, -1259 / 9720 * (lin (5 * n)).1 + 2227 / 9720 * (lin (5 * n)).2) := by
  have p0 : pause (5 * n) = 1 := by unfold pause; rw [if_pos (by omega)]
  have p1 : pause (5 * n + 1) = 1 := by unfold pause; rw [if_pos (by omega)]
  have p2 : pause (5 * n + 2) = 1 := by unfold pause; rw [if_pos (by omega)]
  have p3 : pause (5 * n + 3) = 10 := by unfold pause; rw [if_neg (by omega)]
  have p4 : pause (5 * n + 4) = 10 := by unfold pause; rw [if_neg (by omega)]
  rw [show 5 * (n + 1) = 5 * n + 4 + 1 by ring, lin_succ, p4, show 5 * n + 4 = 5 * n + 3 + 1 by ring, lin_succ, p3,
    show 5 * n + 3 = 5 * n + 2 + 1 by ring, lin_succ, p2, show 5 * n + 2 = 5 * n + 1 + 1 by ring, lin_succ, p1, lin_succ, p0]
  generalize lin (5 * n) = s
  obtain ⟨e, v⟩ := s
  unfold linStep
  push_cast
  refine Prod.ext ?_ ?_ <;> dsimp only <;> ring

theorem lin_two (n : ℕ) : (lin (5 * (n + 2))).1 = -5809 / 4860 * (lin (5 * (n + 1))).1 - 1 / 32 * (lin (5 * n)).1 := by
  rw [lin_cycle (n + 1), lin_cycle n]
  dsimp only
  ring

theorem lin_grows (n : ℕ) : 11 / 10 * |(lin (5 * n)).1| ≤ |(lin (5 * (n + 1))).1| := by
  induction n with
  | zero =>
    have : (lin (5 * (0 + 1))).1 = -923 / 648 := by
      rw [lin_cycle 0]; simp [lin_zero]
    rw [this, show 5 * 0 = 0 from rfl, lin_zero]
    norm_num [abs_of_neg]
  | succ n ih =>
    rw [lin_two n]
    have h1 : |-5809 / 4860 * (lin (5 * (n + 1))).1| = 5809 / 4860 * |(lin (5 * (n + 1))).1| := by
      rw [abs_mul]; norm_num [abs_of_neg]
    have h2 : |1 / 32 * (lin (5 * n)).1| = 1 / 32 * |(lin (5 * n)).1| := by
      rw [abs_mul]; norm_num
    have h3 := abs_sub_abs_le_abs_sub (-5809 / 4860 * (lin (5 * (n + 1))).1) (1 / 32 * (lin (5 * n)).1)
    rw [h1, h2] at h3
    have := abs_nonneg (lin (5 * n)).1
    linarith

theorem lin_power (n : ℕ) : (11 / 10 : ℝ) ^ n ≤ |(lin (5 * n)).1| := by
  induction n with
  | zero => rw [show 5 * 0 = 0 from rfl, lin_zero]; norm_num
  | succ n ih =>
    have := lin_grows n
    rw [pow_succ]
    linarith

/-- The smoother follows the linear recursion as long as the speeds are at most 4 m/s (or not limited). -/
theorem stutter_lin (P : AbParams) (hacc : P.useAccuracyForSmoothing = false) (ha : P.alpha = 1 / 2)
    (allowed : ℕ → ℝ → ℝ → Prop) (hall : ∀ k x y, allowed k x y) (s : AbState) (x y d : ℝ) (pos : ℕ → Position)
    (hw : s.wasCalled = true) (hx : s.position.x = x + d) (hy : s.position.y = y) (hvx : s.speedX = 0) (hvy : s.speedY = 0)
    (hp : Stutter s.position.ts x y pos) (n : ℕ)
    (hv : P.useSpeedConstraint = true → ∀ k < n, |d * (lin (k + 1)).2| ≤ 4) :
    let s' := abIterate P allowed s pos n
    s'.wasCalled = true ∧ s'.position.ts = before s.position.ts pos n ∧ s'.position.x = x + d * (lin n).1 ∧ s'.position.y = y ∧
      s'.speedX = d * (lin n).2 ∧ s'.speedY = 0 := by
  induction n with
  | zero =>
    refine ⟨hw, rfl, ?_, hy, ?_, hvy⟩
    · show s.position.x = _; rw [hx, lin_zero]; simp
    · show s.speedX = _; rw [hvx, lin_zero]; simp
  | succ n ih =>
    obtain ⟨i1, i2, i3, i4, i5, i6⟩ := ih (fun h k hk => hv h k (by omega))
    have hpp : 0 < pause n := by unfold pause; split_ifs <;> norm_num
    have hpt : pause n ≤ 10 := by unfold pause; split_ifs <;> norm_num
    intro s'
    have hs' : s' = (abSmooth P (allowed n) (abIterate P allowed s pos n) (pos n)).2 := rfl
    set q := abIterate P allowed s pos n with hq
    have hnew : q.position.ts < (pos n).ts := by rw [i2, hp.ts n]; omega
    have hg : abGain P q (pos n) = 1 / 2 := by
      unfold abGain; rw [if_neg (by rw [hacc]; exact Bool.false_ne_true), ha]
    have hel : elapsed q (pos n) = pause n := by
      unfold elapsed
      rw [i2, hp.ts n]
      push_cast
      ring
    have hcx : (correctedSpeed q (pos n) (1 / 2)).x = d * (lin (n + 1)).2 := by
      unfold correctedSpeed prediction
      dsimp only
      rw [hel, i3, i5, hp.x n, lin_succ]
      unfold linStep
      have : (pause n : ℝ) ≠ 0 := by exact_mod_cast hpp.ne'
      dsimp only
      field_simp
      ring
    have hcy : (correctedSpeed q (pos n) (1 / 2)).y = 0 := by
      unfold correctedSpeed prediction
      dsimp only
      rw [i4, i6, hp.y n]
      simp
    have hraw : ¬ TakenRaw P (allowed n) q (pos n) (abGain P q (pos n)) := by
      rw [hg]
      rintro (h | h | ⟨h, h'⟩ | ⟨-, h⟩)
      · rw [i1] at h; exact Bool.noConfusion h
      · rw [hel] at h
        have : (pause n : ℝ) ≤ 10 := by exact_mod_cast hpt
        linarith
      · rw [hcx, hcy, show (0 : ℝ) ^ 2 = 0 by norm_num, add_zero, Real.sqrt_sq_eq_abs] at h'
        exact absurd (hv h n (by omega)) (not_le.mpr h')
      · exact h (hall _ _ _)
    obtain ⟨out, e, o1, -, o3, -⟩ := (abSmooth_newer P (allowed n) q (pos n) hnew (by rw [hg]; norm_num)).2 hraw
    rw [hg] at e o1
    have ox : out.x = (between (prediction q (pos n)) (pos n).toXY (1 / 2)).x := congrArg (·.x) o1
    have oy : out.y = (between (prediction q (pos n)) (pos n).toXY (1 / 2)).y := congrArg (·.y) o1
    rw [hs', e]
    refine ⟨i1, o3, ?_, ?_, hcx, hcy⟩
    · show out.x = _
      rw [ox]
      unfold between prediction
      dsimp only [Position.toXY]
      rw [hel, i3, i5, hp.x n, lin_succ]
      unfold linStep
      dsimp only
      ring
    · show out.y = _
      rw [oy]
      unfold between prediction
      dsimp only [Position.toXY]
      rw [i4, i6, hp.y n]
      ring

/-- **C122, finding.** Intervals that are not mild: with the gain of one half (the default smoothing) and a device at rest that is
measured exactly, at intervals of one, one, one, ten and ten seconds in turn, the error of the smoothed position grows by at least
a tenth with every round, without bound when the speed is not limited. With the speed limit any number of rounds is possible too,
if the first error is small enough. -/
theorem C122_diverges (P : AbParams) (hacc : P.useAccuracyForSmoothing = false) (ha : P.alpha = 1 / 2)
    (allowed : ℕ → ℝ → ℝ → Prop) (hall : ∀ k x y, allowed k x y) (n : ℕ) :
    ∃ d0 > 0, ∀ (s : AbState) (x y d : ℝ) (pos : ℕ → Position), s.wasCalled = true → s.position.x = x + d → s.position.y = y →
      s.speedX = 0 → s.speedY = 0 → Stutter s.position.ts x y pos → (P.useSpeedConstraint = true → |d| ≤ d0) →
      (11 / 10) ^ n * |d| ≤ |(abIterate P allowed s pos (5 * n)).position.x - x| := by
  have hb : ∃ B : ℝ, 0 < B ∧ ∀ k < 5 * n, |(lin (k + 1)).2| ≤ B := by
    generalize 5 * n = m
    induction m with
    | zero => exact ⟨1, one_pos, fun k hk => absurd hk (Nat.not_lt_zero _)⟩
    | succ m ih =>
      obtain ⟨B, hB, h⟩ := ih
      refine ⟨B + |(lin (m + 1)).2|, by positivity, fun k hk => ?_⟩
      rcases Nat.lt_succ_iff_lt_or_eq.mp hk with h' | h'
      · exact (h k h').trans (le_add_of_nonneg_right (abs_nonneg _))
      · rw [h']; linarith
  obtain ⟨B, hB, hk⟩ := hb
  refine ⟨4 / B, by positivity, fun s x y d pos hw hx hy hvx hvy hp hd => ?_⟩
  obtain ⟨-, -, h, -⟩ := stutter_lin P hacc ha allowed hall s x y d pos hw hx hy hvx hvy hp (5 * n) (fun h k hk' => by
    rw [abs_mul]
    calc |d| * |(lin (k + 1)).2| ≤ 4 / B * B := mul_le_mul (hd h) (hk k hk') (abs_nonneg _) (by positivity)
      _ = 4 := by field_simp)
  rw [h, add_sub_cancel_left, abs_mul, mul_comm]
  exact mul_le_mul_of_nonneg_left (lin_power n) (abs_nonneg _)

/-- **C122, finding.** The same with the default settings, in figures: the smoothed position is ten metres off and all further
measurements are exact; after four rounds, that is twenty exact measurements, it is more than 22 metres off. -/
theorem C122_figures (allowed : ℕ → ℝ → ℝ → Prop) (hall : ∀ k x y, allowed k x y) (s : AbState) (x y : ℝ) (pos : ℕ → Position)
    (hw : s.wasCalled = true) (hx : s.position.x = x + 10) (hy : s.position.y = y) (hvx : s.speedX = 0) (hvy : s.speedY = 0)
    (hp : Stutter s.position.ts x y pos) :
    22 < |(abIterate (abParams {}) allowed s pos 20).position.x - x| := by
  have l1 : lin 1 = ((1 / 2 : ℝ), (-1 / 6 : ℝ)) := by
    rw [lin_succ 0, lin_zero]; norm_num [pause, linStep]
  have l2 : lin 2 = ((1 / 6 : ℝ), (-2 / 9 : ℝ)) := by
    rw [lin_succ 1, l1]; norm_num [pause, linStep]
  have l3 : lin 3 = ((-1 / 36 : ℝ), (-23 / 108 : ℝ)) := by
    rw [lin_succ 2, l2]; norm_num [pause, linStep]
  have l4 : lin 4 = ((-233 / 216 : ℝ), (-1147 / 6480 : ℝ)) := by
    rw [lin_succ 3, l3]; norm_num [pause, linStep]
  have l5 : lin 5 = ((-923 / 648 : ℝ), (-1259 / 9720 : ℝ)) := by
    rw [lin_succ 4, l4]; norm_num [pause, linStep]
  have l6 : lin 6 = ((-944 / 1215 : ℝ), (755 / 5832 : ℝ)) := by
    rw [lin_succ 5, l5]; norm_num [pause, linStep]
  have l7 : lin 7 = ((-18881 / 58320 : ℝ), (41531 / 174960 : ℝ)) := by
    rw [lin_succ 6, l6]; norm_num [pause, linStep]
  have l8 : lin 8 = ((-1889 / 43740 : ℝ), (132149 / 524880 : ℝ)) := by
    rw [lin_succ 7, l7]; norm_num [pause, linStep]
  have l9 : lin 9 = ((649411 / 524880 : ℝ), (3315059 / 15746400 : ℝ)) := by
    rw [lin_succ 8, l8]; norm_num [pause, linStep]
  have l10 : lin 10 = ((1315823 / 787320 : ℝ), (7313531 / 47239200 : ℝ)) := by
    rw [lin_succ 9, l9]; norm_num [pause, linStep]
  have l11 : lin 11 = ((86262911 / 94478400 : ℝ), (-1695269 / 11337408 : ℝ)) := by
    rw [lin_succ 10, l10]; norm_num [pause, linStep]
  have l12 : lin 12 = ((6762719 / 17714700 : ℝ), (-235348679 / 850305600 : ℝ)) := by
    rw [lin_succ 11, l11]; norm_num [pause, linStep]
  have l13 : lin 13 = ((89261833 / 1700611200 : ℝ), (-1501353907 / 5101833600 : ℝ)) := by
    rw [lin_succ 12, l12]; norm_num [pause, linStep]
  have l14 : lin 14 = ((-14745753571 / 10203667200 : ℝ), (-75335480849 / 306110016000 : ℝ)) := by
    rw [lin_succ 13, l13]; norm_num [pause, linStep]
  have l15 : lin 15 = ((-59786370781 / 30611001600 : ℝ), (-83110035883 / 459165024000 : ℝ)) := by
    rw [lin_succ 14, l14]; norm_num [pause, linStep]
  have l16 : lin 16 = ((-489952798799 / 459165024000 : ℝ), (4812453823 / 27549901440 : ℝ)) := by
    rw [lin_succ 15, l15]; norm_num [pause, linStep]
  have l17 : lin 17 = ((-1229235705247 / 2754990144000 : ℝ), (2672971852147 / 8264970432000 : ℝ)) := by
    rw [lin_succ 16, l16]; norm_num [pause, linStep]
  have l18 : lin 18 = ((-507367631797 / 8264970432000 : ℝ), (4263141594119 / 12397455648000 : ℝ)) := by
    rw [lin_succ 17, l17]; norm_num [pause, linStep]
  have l19 : lin 19 = ((83740728986989 / 49589822592000 : ℝ), (427836262307291 / 1487694677760000 : ℝ)) := by
    rw [lin_succ 18, l18]; norm_num [pause, linStep]
  have l20 : lin 20 = ((339529224634129 / 148769467776000 : ℝ), (7374840330373 / 34867844010000 : ℝ)) := by
    rw [lin_succ 19, l19]; norm_num [pause, linStep]
  obtain ⟨-, -, h, -⟩ := stutter_lin (abParams {}) rfl (by norm_num [abParams, MIN_ALPHA, MAX_ALPHA]) allowed hall s x y 10 pos
    hw hx hy hvx hvy hp 20 (fun _ k hk => by
      rw [abs_le]
      interval_cases k <;> simp only [Nat.reduceAdd, l1, l2, l3, l4, l5, l6, l7, l8, l9, l10, l11, l12, l13, l14, l15, l16, l17, l18, l19, l20] <;> norm_num)
  rw [h, add_sub_cancel_left, l20, lt_abs]
  norm_num

/-- Such measurements exist, and so do measurements with mild intervals. -/
example : ∃ pos : ℕ → Position, Stutter 0 3 4 pos := by
  let f : ℕ → Int := fun n => Nat.rec 0 (fun k t => t + 1000 * pause k) n
  refine ⟨fun n => ⟨3, 4, "1", 1, f (n + 1), false, .INDOOR, 0⟩, fun _ => rfl, fun _ => rfl, fun n => ?_⟩
  cases n <;> rfl

/-- Intervals that alternate between four and three seconds; the measurements are half a metre off. -/
example : ∃ pos : ℕ → Position, Near 3 4 (1 / 2) pos ∧ Intervals 0 0 (4 / 3) pos ∧ ¬ ∃ T, Stationary 0 T 3 4 pos := by
  refine ⟨fun n => ⟨7 / 2, 4, "1", 1, 4000 * ((n + 2) / 2 : ℕ) + 3000 * ((n + 1) / 2 : ℕ), false, .INDOOR, 0⟩,
    ⟨fun _ => by norm_num, fun _ => by norm_num⟩, ⟨?_, ?_, ?_⟩, ?_⟩
  · intro n
    rcases n with - | n
    · decide
    · dsimp only [before]; omega
  · intro n
    rw [zero_mul]
    refine Int.cast_nonneg ?_
    dsimp only
    omega
  · intro n
    have : 3 * ((4000 * ((n + 1 + 2) / 2 : ℕ) + 3000 * ((n + 1 + 1) / 2 : ℕ) : Int) - (4000 * ((n + 2) / 2 : ℕ) + 3000 * ((n + 1) / 2 : ℕ))) ≤
        4 * ((4000 * ((n + 2) / 2 : ℕ) + 3000 * ((n + 1) / 2 : ℕ) : Int) - before 0
          (fun n => ⟨7 / 2, 4, "1", 1, 4000 * ((n + 2) / 2 : ℕ) + 3000 * ((n + 1) / 2 : ℕ), false, .INDOOR, 0⟩) n) := by
      rcases n with - | n
      · decide
      · dsimp only [before]; omega
    have h2 := (Int.cast_le (R := ℝ)).mpr this
    dsimp only
    simp only [Int.cast_mul, Int.cast_sub, Int.cast_add, Int.cast_ofNat] at h2 ⊢
    linarith
  · rintro ⟨T, h⟩
    have := h.x 0
    norm_num at this

end Verif.Smooth
