import Verif.Fp.BaroModel
import Verif.Fp.FuseProps
import Verif.LevelEst.BarometerProps

/-!
# C161: the barometer in floating point
-/

namespace Verif.Fp

open Verif Verif.LevelEst
open Verif.Radio (mean)

variable (R : Rounding)

/-- The barometer after a sequence of calls, with rounding. -/
noncomputable def runBaroF (logF : ℝ → ℝ) (calls : List (String × SensorMeasurement)) : Barometer :=
  calls.foldl (fun b c => (checkLevelChangeF R logF b c.1 c.2).2) .init

/-- What the next call returns, with rounding. -/
noncomputable def baroOutF (logF : ℝ → ℝ) (calls : List (String × SensorMeasurement)) (c : String × SensorMeasurement) : String :=
  (checkLevelChangeF R logF (runBaroF R logF calls) c.1 c.2).1

/-- A logarithm of the C library: within 10⁻¹⁵ between a quarter and four. -/
def GoodLog (logF : ℝ → ℝ) : Prop := ∀ x, 1 / 4 ≤ x → x ≤ 4 → |logF x - Real.log x| ≤ 1 / 10 ^ 15

/-- The difference of the heights of the two windows is not within ten nanometres of two metres. -/
def ClearOfTwo (ps : List ℝ) : Prop :=
  201 ≤ ps.length → 1 / 10 ^ 8 ≤ |(|scaleHeight * Real.log (mean (newest ps) / mean (preceding ps))|) - 2|

theorem u_upper : u ≤ 12 / 10 ^ 17 := u_tight

theorem pascal_near : |pascalToMetersF R - (-scaleHeight)| ≤ 1 / 10 ^ 11 := by
  have hu := u_pos
  have hut := u_upper
  unfold pascalToMetersF scaleHeight
  have h1 := near_by R (x := 831 / 100) (B := 9) (by norm_num [abs_of_pos])
  obtain ⟨a1, a2⟩ := abs_le.mp h1
  set r := R.rnd (831 / 100)
  have h2 := near_by R (x := -r * 288) (B := 2394) (by rw [abs_le]; constructor <;> linarith)
  obtain ⟨b1, b2⟩ := abs_le.mp h2
  set a := R.rnd (-r * 288)
  have h3 := near_by R (x := 98 / 10) (B := 10) (by norm_num [abs_of_pos])
  obtain ⟨c1, c2⟩ := abs_le.mp h3
  set g := R.rnd (98 / 10)
  have h4 := near_by R (x := 289 / 10000) (B := 3 / 100) (by norm_num [abs_of_pos])
  obtain ⟨d1, d2⟩ := abs_le.mp h4
  set m := R.rnd (289 / 10000)
  have hgm : |g * m - 98 / 10 * (289 / 10000)| ≤ u := by
    have e : g * m - 98 / 10 * (289 / 10000) = (g - 98 / 10) * m + 98 / 10 * (m - 289 / 10000) := by ring
    rw [e]
    refine (abs_add_le _ _).trans ?_
    rw [abs_mul, abs_mul, abs_of_pos (show (0 : ℝ) < 98 / 10 by norm_num)]
    have x1 : |g - 98 / 10| * |m| ≤ (u * 10 + u / 200) * (3 / 100) := by
      apply mul_le_mul h3 _ (abs_nonneg _) (by positivity)
      rw [abs_le]; constructor <;> linarith
    linarith
  obtain ⟨e1, e2⟩ := abs_le.mp hgm
  have h5 := near_by R (x := g * m) (B := 3 / 10) (by rw [abs_le]; constructor <;> linarith)
  obtain ⟨f1, f2⟩ := abs_le.mp h5
  set d := R.rnd (g * m)
  have hd0 : 28 / 100 ≤ d := by linarith
  have hdp : 0 < d := by linarith
  rw [divide_eq hdp.ne']
  have hq : |a / d - (-(831 / 100 * 288 / (98 / 10 * (289 / 10000))))| ≤ 61000 * u := by
    have e : a / d - (-(831 / 100 * 288 / (98 / 10 * (289 / 10000)))) =
        ((a + 831 / 100 * 288) + 831 / 100 * 288 / (98 / 10 * (289 / 10000)) * (d - 98 / 10 * (289 / 10000))) / d := by
      field_simp
      ring
    rw [e, abs_div, abs_of_pos hdp, div_le_iff₀ hdp]
    have k : (831 / 100 * 288 / (98 / 10 * (289 / 10000)) : ℝ) ≤ 8451 := by norm_num
    have k0 : (0 : ℝ) ≤ 831 / 100 * 288 / (98 / 10 * (289 / 10000)) := by norm_num
    have y1 : |a + 831 / 100 * 288| ≤ 5000 * u := by rw [abs_le]; constructor <;> linarith
    have y2 : |d - 98 / 10 * (289 / 10000)| ≤ 1.4 * u := by rw [abs_le]; constructor <;> linarith
    have y3 : |831 / 100 * 288 / (98 / 10 * (289 / 10000)) * (d - 98 / 10 * (289 / 10000))| ≤ 8451 * (1.4 * u) := by
      rw [abs_mul, abs_of_nonneg k0]
      exact mul_le_mul k y2 (abs_nonneg _) (by norm_num)
    have y4 := abs_add_le (a + 831 / 100 * 288) (831 / 100 * 288 / (98 / 10 * (289 / 10000)) * (d - 98 / 10 * (289 / 10000)))
    have y5 : 61000 * u * (28 / 100) ≤ 61000 * u * d := mul_le_mul_of_nonneg_left hd0 (by positivity)
    linarith
  obtain ⟨g1, g2⟩ := abs_le.mp hq
  have k : (831 / 100 * 288 / (98 / 10 * (289 / 10000)) : ℝ) ≤ 8451 := by norm_num
  have k0 : (0 : ℝ) ≤ 831 / 100 * 288 / (98 / 10 * (289 / 10000)) := by norm_num
  generalize (831 / 100 * 288 / (98 / 10 * (289 / 10000)) : ℝ) = H at *
  have h6 := near_by R (x := a / d) (B := 8452) (by rw [abs_le]; constructor <;> linarith)
  obtain ⟨i1, i2⟩ := abs_le.mp h6
  rw [abs_le]
  constructor <;> linarith

theorem fold_near (l : List ℝ) (hl : ∀ x ∈ l, 300 ≤ x ∧ x ≤ 1100) : ∀ (k : ℕ) (s s' : ℝ), k + l.length ≤ 101 → 0 ≤ s → s ≤ 1100 * k →
    |s' - s| ≤ k * (112001 * u) →
    |l.foldl (fun s x => R.rnd (s + x)) s' - l.foldl (· + ·) s| ≤ (k + l.length : ℕ) * (112001 * u) ∧
    s + 300 * l.length ≤ l.foldl (· + ·) s ∧ l.foldl (· + ·) s ≤ s + 1100 * l.length := by
  have hu := u_pos
  have hut := u_upper
  induction l with
  | nil => intro k s s' _ _ _ h; simpa using h
  | cons x l ih =>
    intro k s s' hk hs hs1 h
    obtain ⟨x0, x1⟩ := hl x (by simp)
    rw [List.length_cons] at hk
    have hk' : (k : ℝ) ≤ 100 := by exact_mod_cast (by omega : k ≤ 100)
    have hk0 : (0 : ℝ) ≤ k := Nat.cast_nonneg k
    have hku : (k : ℝ) * (112001 * u) ≤ 100 * (112001 * u) := mul_le_mul_of_nonneg_right hk' (by positivity)
    obtain ⟨a1, a2⟩ := abs_le.mp h
    have h1 := near_by R (x := s' + x) (B := 112000) (by rw [abs_le]; constructor <;> linarith)
    obtain ⟨b1, b2⟩ := abs_le.mp h1
    obtain ⟨c1, c2, c3⟩ := ih (fun y hy => hl y (by simp [hy])) (k + 1) (s + x) (R.rnd (s' + x)) (by omega) (by linarith)
      (by push_cast; linarith) (by push_cast; rw [abs_le]; constructor <;> linarith)
    rw [List.foldl_cons, List.foldl_cons, List.length_cons]
    refine ⟨?_, ?_, ?_⟩
    · rw [show k + (l.length + 1) = k + 1 + l.length by omega]; exact c1
    · push_cast; linarith
    · push_cast; linarith

theorem mean_near (l : List ℝ) (hne : l ≠ []) (hlen : l.length ≤ 101) (hl : ∀ x ∈ l, 300 ≤ x ∧ x ≤ 1100) :
    |calcMeanF R l - mean l| ≤ 114000 * u ∧ 300 ≤ mean l ∧ mean l ≤ 1100 := by
  have hu := u_pos
  have hut := u_upper
  rw [← calcMean_eq l hne, calcMean_div]
  unfold calcMeanF
  have he : ¬ l.isEmpty = true := by cases l <;> simp_all
  rw [if_neg he, if_neg he]
  obtain ⟨h1, h2, h3⟩ := fold_near R l hl 0 0 0 (by omega) le_rfl (by simp) (by simp)
  have hn : (0 : ℝ) < l.length := by exact_mod_cast List.length_pos_of_ne_nil hne
  rw [divide_eq hn.ne']
  rw [zero_add] at h1 h2 h3
  generalize l.foldl (fun s x => R.rnd (s + x)) 0 = S' at *
  generalize l.foldl (· + ·) 0 = S at *
  generalize (l.length : ℝ) = n at *
  have m0 : 300 ≤ S / n := by rw [le_div_iff₀ hn]; exact h2
  have m1 : S / n ≤ 1100 := by rw [div_le_iff₀ hn]; exact h3
  have h4 : |S' / n - S / n| ≤ 112001 * u := by
    rw [← sub_div, abs_div, abs_of_pos hn, div_le_iff₀ hn]
    linarith
  obtain ⟨a1, a2⟩ := abs_le.mp h4
  have h5 := near_by R (x := S' / n) (B := 1101) (by rw [abs_le]; constructor <;> linarith)
  obtain ⟨b1, b2⟩ := abs_le.mp h5
  exact ⟨by rw [abs_le]; constructor <;> linarith, m0, m1⟩

theorem log_move {a b : ℝ} (ha : 26 / 100 ≤ a) (hb : 26 / 100 ≤ b) : |Real.log a - Real.log b| ≤ |a - b| / (26 / 100) := by
  have key : ∀ a b : ℝ, 26 / 100 ≤ a → 26 / 100 ≤ b → Real.log a - Real.log b ≤ |a - b| / (26 / 100) := by
    intro a b ha hb
    have pa : 0 < a := by linarith
    have pb : 0 < b := by linarith
    rw [← Real.log_div pa.ne' pb.ne']
    have h := Real.log_le_sub_one_of_pos (div_pos pa pb)
    have e : a / b - 1 = (a - b) / b := by field_simp
    rw [e] at h
    refine h.trans ((div_le_div_of_nonneg_right (le_abs_self _) pb.le).trans ?_)
    exact div_le_div_of_nonneg_left (abs_nonneg _) (by norm_num) hb
  rw [abs_le]
  refine ⟨?_, key a b ha hb⟩
  have := key b a hb ha
  rw [abs_sub_comm] at this
  linarith

/-- The difference of the heights. -/
theorem height_near {logF : ℝ → ℝ} (hlog : GoodLog logF) {c c' l l' : ℝ} (hc : |c' - c| ≤ 114000 * u) (hl : |l' - l| ≤ 114000 * u)
    (c0 : 300 ≤ c) (c1 : c ≤ 1100) (l0 : 300 ≤ l) (l1 : l ≤ 1100) :
    |deltaHeightF R logF c' l' - -scaleHeight * Real.log (c / l)| ≤ 9 / 10 ^ 9 := by
  have hu := u_pos
  have hut := u_upper
  unfold deltaHeightF
  have hp := pascal_near R
  set p := pascalToMetersF R
  have hH : scaleHeight ≤ 8451 := by unfold scaleHeight; norm_num
  have hH0 : 0 ≤ scaleHeight := by unfold scaleHeight; norm_num
  obtain ⟨p1, p2⟩ := abs_le.mp hp
  obtain ⟨a1, a2⟩ := abs_le.mp hc
  obtain ⟨b1, b2⟩ := abs_le.mp hl
  have h1 := near_by R (x := 100 * c') (B := 110001) (by rw [abs_le]; constructor <;> linarith)
  have h2 := near_by R (x := 100 * l') (B := 110001) (by rw [abs_le]; constructor <;> linarith)
  obtain ⟨d1, d2⟩ := abs_le.mp h1
  obtain ⟨e1, e2⟩ := abs_le.mp h2
  set C := R.rnd (100 * c')
  set L := R.rnd (100 * l')
  have hC : |C - 100 * c| ≤ 11520000 * u := by rw [abs_le]; constructor <;> linarith
  have hL : |L - 100 * l| ≤ 11520000 * u := by rw [abs_le]; constructor <;> linarith
  have L0 : 29999 ≤ L := by linarith
  have Lp : 0 < L := by linarith
  have lp : 0 < l := by linarith
  rw [divide_eq Lp.ne']
  have q0 : 27 / 100 ≤ c / l := by rw [le_div_iff₀ lp]; linarith
  have q1 : c / l ≤ 367 / 100 := by rw [div_le_iff₀ lp]; linarith
  have hq : |C / L - c / l| ≤ 1800 * u := by
    have e : C / L - c / l = ((C - 100 * c) - c / l * (L - 100 * l)) / L := by
      field_simp
      ring
    rw [e, abs_div, abs_of_pos Lp, div_le_iff₀ Lp]
    have y := abs_sub (C - 100 * c) (c / l * (L - 100 * l))
    have y2 : |c / l * (L - 100 * l)| ≤ 367 / 100 * (11520000 * u) := by
      rw [abs_mul, abs_of_nonneg (by linarith)]
      exact mul_le_mul q1 hL (abs_nonneg _) (by norm_num)
    have y3 : 1800 * u * 29999 ≤ 1800 * u * L := mul_le_mul_of_nonneg_left L0 (by positivity)
    linarith
  obtain ⟨f1, f2⟩ := abs_le.mp hq
  have h3 := near_by R (x := C / L) (B := 4) (by rw [abs_le]; constructor <;> linarith)
  obtain ⟨g1, g2⟩ := abs_le.mp h3
  set q' := R.rnd (C / L)
  set q := c / l
  have hqq : |q' - q| ≤ 1805 * u := by rw [abs_le]; constructor <;> linarith
  have hlg := hlog q' (by linarith) (by linarith)
  have hmv := log_move (a := q') (b := q) (by linarith) (by linarith)
  have hmv' : |Real.log q' - Real.log q| ≤ 1805 * u / (26 / 100) := hmv.trans (div_le_div_of_nonneg_right hqq (by norm_num))
  have hlogq : |Real.log q| ≤ 3 := by
    have h5 := Real.log_le_sub_one_of_pos (show 0 < q by linarith)
    have h6 := Real.one_sub_inv_le_log_of_pos (show 0 < q by linarith)
    have h7 : q⁻¹ ≤ 4 := by
      rw [inv_le_comm₀ (by linarith) (by norm_num)]; linarith
    rw [abs_le]; constructor <;> linarith
  obtain ⟨i1, i2⟩ := abs_le.mp hlg
  obtain ⟨j1, j2⟩ := abs_le.mp hmv'
  have hlt : |logF q' - Real.log q| ≤ 85 / 10 ^ 14 := by
    rw [abs_le]
    constructor <;> linarith
  generalize logF q' = w at *
  generalize Real.log q = v at *
  obtain ⟨k1, k2⟩ := abs_le.mp hlogq
  obtain ⟨m1, m2⟩ := abs_le.mp hlt
  have hpw : |p * w - -scaleHeight * v| ≤ 8 / 10 ^ 9 := by
    have e : p * w - -scaleHeight * v = (p - -scaleHeight) * w - scaleHeight * (w - v) := by ring
    rw [e]
    refine (abs_sub _ _).trans ?_
    rw [abs_mul, abs_mul, abs_of_nonneg hH0]
    have x1 : |p - -scaleHeight| * |w| ≤ 1 / 10 ^ 11 * 4 := by
      apply mul_le_mul hp _ (abs_nonneg _) (by norm_num)
      rw [abs_le]; constructor <;> linarith
    have x2 : scaleHeight * |w - v| ≤ 8451 * (85 / 10 ^ 14) := mul_le_mul hH hlt (abs_nonneg _) (by norm_num)
    linarith
  obtain ⟨n1, n2⟩ := abs_le.mp hpw
  have hv : |-scaleHeight * v| ≤ 8451 * 3 := by
    rw [abs_mul, abs_neg, abs_of_nonneg hH0]
    exact mul_le_mul hH hlogq (abs_nonneg _) (by norm_num)
  obtain ⟨o1, o2⟩ := abs_le.mp hv
  have h8 := near_by R (x := p * w) (B := 30000) (by rw [abs_le]; constructor <;> linarith)
  obtain ⟨r1, r2⟩ := abs_le.mp h8
  rw [abs_le]
  constructor <;> linarith

theorem updateLevel_same {logF : ℝ → ℝ} (hlog : GoodLog logF) (b : Barometer) (level : String) (ps : List ℝ) (hn : b.newM = newest ps)
    (ho : b.stored = preceding ps) (hp : ∀ p ∈ ps, 300 ≤ p ∧ p ≤ 1100) (hc : ClearOfTwo ps) :
    updateLevelF R logF b level = updateLevel b level := by
  unfold updateLevelF
  rw [updateLevel]
  by_cases h1 : b.newM.length > sizeOfChunk ∧ b.stored.length ≥ sizeOfChunk
  · rw [if_pos h1, if_pos h1]
    by_cases h2 : b.lastKnownLevel ≠ level
    · rw [if_pos h2, if_pos h2]
      have hu := u_pos
      have hut := u_upper
      obtain ⟨g1, g2⟩ := h1
      unfold sizeOfChunk at g1 g2
      have n0 : b.newM ≠ [] := by intro e; rw [e] at g1; simp at g1
      have s0 : b.stored ≠ [] := by intro e; rw [e] at g2; simp at g2
      have n1 : b.newM.length ≤ 101 := by rw [hn, newest, lastN, List.length_drop]; omega
      have s1 : b.stored.length ≤ 101 := by rw [ho, preceding, lastN, List.length_drop]; omega
      have n2 : ∀ x ∈ b.newM, 300 ≤ x ∧ x ≤ 1100 := fun x hx => hp x (by
        rw [hn] at hx; exact List.mem_of_mem_drop hx)
      have s2 : ∀ x ∈ b.stored, 300 ≤ x ∧ x ≤ 1100 := fun x hx => hp x (by
        rw [ho] at hx; exact List.mem_of_mem_take (List.mem_of_mem_drop hx))
      have hlen : 201 ≤ ps.length := by
        rw [ho, preceding, lastN, List.length_drop, List.length_take] at g2
        omega
      have hcl := hc hlen
      obtain ⟨c1, c2, c3⟩ := mean_near R b.newM n0 n1 n2
      obtain ⟨l1, l2, l3⟩ := mean_near R b.stored s0 s1 s2
      have hh := height_near R hlog c1 l1 c2 c3 l2 l3
      rw [← hn, ← ho] at hcl
      dsimp only
      rw [calcMean_eq _ n0, calcMean_eq _ s0]
      have heps : doubleEpsilon ≤ 1 := by unfold doubleEpsilon; norm_num
      obtain ⟨x1, x2⟩ := abs_le.mp c1
      obtain ⟨y1, y2⟩ := abs_le.mp l1
      rw [if_neg (show ¬ (calcMeanF R b.newM ≤ doubleEpsilon ∨ calcMeanF R b.stored ≤ doubleEpsilon) by push Not; constructor <;> linarith),
        if_neg (show ¬ (mean b.newM ≤ doubleEpsilon ∨ mean b.stored ≤ doubleEpsilon) by push Not; constructor <;> linarith)]
      have lp : 0 < mean b.stored := by linarith
      have cp : 0 < mean b.newM := by linarith
      have e : pascalToMeters * logarithm (100 * mean b.newM ÷ (100 * mean b.stored)) =
          -scaleHeight * Real.log (mean b.newM / mean b.stored) := by
        rw [divide_eq (by positivity), mul_div_mul_left _ _ (by norm_num : (100 : ℝ) ≠ 0), logarithm_eq (div_pos cp lp)]
        unfold pascalToMeters scaleHeight
        ring
      rw [e]
      have e2 : |-scaleHeight * Real.log (mean b.newM / mean b.stored)| = |scaleHeight * Real.log (mean b.newM / mean b.stored)| := by
        rw [neg_mul, abs_neg]
      have hab := (abs_abs_sub_abs_le_abs_sub (deltaHeightF R logF (calcMeanF R b.newM) (calcMeanF R b.stored))
        (-scaleHeight * Real.log (mean b.newM / mean b.stored))).trans hh
      have hiff := lt_same (a := 2) (a' := 2) (e := 0) (by simp) hab (by rw [abs_sub_comm, e2]; linarith)
      by_cases h5 : 2 < |-scaleHeight * Real.log (mean b.newM / mean b.stored)|
      · rw [if_pos h5, if_pos (hiff.mpr h5)]
      · rw [if_neg h5, if_neg (fun h => h5 (hiff.mp h))]
    · rw [if_neg h2, if_neg h2]
  · rw [if_neg h1, if_neg h1]

theorem check_same {logF : ℝ → ℝ} (hlog : GoodLog logF) (calls : List (String × SensorMeasurement)) (c : String × SensorMeasurement)
    (hp : ∀ p ∈ pressures (calls ++ [c]), 300 ≤ p ∧ p ≤ 1100) (hc : ClearOfTwo (pressures (calls ++ [c]))) :
    checkLevelChangeF R logF (runBaro calls) c.1 c.2 = checkLevelChange (runBaro calls) c.1 c.2 := by
  unfold checkLevelChangeF
  rw [checkLevelChange]
  by_cases hi : (runBaro calls).isInitialized = true
  · obtain ⟨h1, h2, -, -⟩ := C25_buffers (calls ++ [c])
    have hrun : runBaro (calls ++ [c]) = updateLevel (updateBuffers (runBaro calls) c.2) c.1 := by
      rw [runBaro_snoc, check_of_init hi]
    rw [hrun, (updateLevel_buffers _ _).1] at h1
    rw [hrun, (updateLevel_buffers _ _).2] at h2
    rw [updateLevel_same R hlog _ c.1 _ h1 h2 hp hc]
  · simp [hi]

/-- **C161.** Rounding does not change what the barometer remembers: for pressures between 300 and 1100 millibar, and heights not within ten
nanometres of two metres at any time, the rounded barometer is in the exact state after every history of calls. -/
theorem C161_state {logF : ℝ → ℝ} (hlog : GoodLog logF) (calls : List (String × SensorMeasurement))
    (hp : ∀ p ∈ pressures calls, 300 ≤ p ∧ p ≤ 1100) (hc : ∀ l, l <+: calls → ClearOfTwo (pressures l)) :
    runBaroF R logF calls = runBaro calls := by
  induction calls using List.reverseRecOn with
  | nil => rfl
  | append_singleton calls c ih =>
    have hsub : ∀ p ∈ pressures calls, p ∈ pressures (calls ++ [c]) := by
      intro p h
      by_cases hne : calls = []
      · subst hne; simp [pressures] at h
      · rw [pressures_snoc _ _ hne]; exact List.mem_append_left _ h
    have ih' := ih (fun p h => hp p (hsub p h)) (fun l hl => hc l (hl.trans (List.prefix_append _ _)))
    have e : runBaroF R logF (calls ++ [c]) = (checkLevelChangeF R logF (runBaroF R logF calls) c.1 c.2).2 := by simp [runBaroF]
    rw [e, ih', check_same R hlog calls c hp (hc _ (List.prefix_refl _)), runBaro_snoc]

/-- **C161.** Nor does it change the floor that the barometer answers. -/
theorem C161_answer {logF : ℝ → ℝ} (hlog : GoodLog logF) (calls : List (String × SensorMeasurement)) (c : String × SensorMeasurement)
    (hp : ∀ p ∈ pressures (calls ++ [c]), 300 ≤ p ∧ p ≤ 1100) (hc : ∀ l, l <+: calls ++ [c] → ClearOfTwo (pressures l)) :
    baroOutF R logF calls c = baroOut calls c := by
  have hsub : ∀ p ∈ pressures calls, p ∈ pressures (calls ++ [c]) := by
    intro p h
    by_cases hne : calls = []
    · subst hne; simp [pressures] at h
    · rw [pressures_snoc _ _ hne]; exact List.mem_append_left _ h
  unfold baroOutF baroOut
  rw [C161_state R hlog calls (fun p h => hp p (hsub p h)) (fun l hl => hc l (hl.trans (List.prefix_append _ _))),
    check_same R hlog calls c hp (hc _ (List.prefix_refl _))]

/-- A correctly rounded logarithm is good. -/
theorem rounded_log_good : GoodLog (fun x => R.rnd (Real.log x)) := by
  intro x h0 h1
  have hu := u_pos
  have hut := u_upper
  have h5 := Real.log_le_sub_one_of_pos (show 0 < x by linarith)
  have h6 := Real.one_sub_inv_le_log_of_pos (show 0 < x by linarith)
  have h7 : x⁻¹ ≤ 4 := by
    rw [inv_le_comm₀ (by linarith) (by norm_num)]; linarith
  have := near_by R (x := Real.log x) (B := 3) (by rw [abs_le]; constructor <;> linarith)
  linarith

/-- A barometer reading with a floor detected from the radio signals. -/
noncomputable def reading (level : String) (p : ℝ) : String × SensorMeasurement := (level, ⟨⟨.BAROMETER, ⟨p, 0, 0⟩⟩, 0⟩)

theorem climb_clear {m n : ℕ} (hm : m = 100) (hn : n = 100) :
    let calls := List.replicate (m + 1) (reading "0" 1013) ++ List.replicate n (reading "1" 1012)
    pressures (calls ++ [reading "1" 1012]) = List.replicate m 1013 ++ List.replicate (n + 1) 1012 ∧
    Climbed (pressures (calls ++ [reading "1" 1012])) ∧ ∀ l, l <+: calls ++ [reading "1" 1012] → ClearOfTwo (pressures l) := by
  intro calls
  have hpr : pressures (calls ++ [reading "1" 1012]) = List.replicate m 1013 ++ List.replicate (n + 1) 1012 := by
    rw [List.replicate_succ' (n := n)]
    simp [pressures, calls, reading, List.replicate_succ]
  have hnew : newest (List.replicate m (1013 : ℝ) ++ List.replicate (n + 1) 1012) = List.replicate (n + 1) 1012 :=
    lastN_append 101 _ _ (by rw [List.length_replicate]; omega)
  have hpre : preceding (List.replicate m (1013 : ℝ) ++ List.replicate (n + 1) 1012) = List.replicate m 1013 := by
    unfold preceding lastN
    rw [List.length_append, List.length_replicate, List.length_replicate, show m + (n + 1) - 101 = m by omega,
      List.take_append_of_le_length (by rw [List.length_replicate]), List.take_of_length_le (by rw [List.length_replicate]),
      List.length_replicate, show m - 101 = 0 by omega, List.drop_zero]
  have hclimb : scaleHeight * Real.log (1012 / 1013) ≤ -3 := by
    have h1 : Real.log (1012 / 1013) ≤ 1012 / 1013 - 1 := Real.log_le_sub_one_of_pos (by norm_num)
    have hH : (8000 : ℝ) < scaleHeight := by unfold scaleHeight; norm_num
    nlinarith
  have habs : 3 ≤ |scaleHeight * Real.log (1012 / 1013)| := by rw [abs_of_nonpos (by linarith)]; linarith
  refine ⟨hpr, ?_, ?_⟩
  · unfold Climbed
    rw [hpr, hnew, hpre, mean_replicate _ _ (by omega), mean_replicate _ _ (by omega)]
    exact ⟨by norm_num, by norm_num, by linarith⟩
  · intro l hl
    by_cases he : l = calls ++ [reading "1" 1012]
    · intro _
      rw [he, hpr, hnew, hpre, mean_replicate _ _ (by omega), mean_replicate _ _ (by omega)]
      rw [abs_of_nonneg (by linarith : 0 ≤ |scaleHeight * Real.log (1012 / 1013)| - 2)]
      have : (1 / 10 ^ 8 : ℝ) ≤ 1 := by norm_num
      linarith
    · intro h201
      exfalso
      have h1 : (pressures l).length ≤ l.length - 1 := by
        unfold pressures
        exact (List.length_filterMap_le _ _).trans (by simp)
      have h2 : l.length < (calls ++ [reading "1" 1012]).length :=
        lt_of_le_of_ne hl.length_le (fun h => he (hl.eq_of_length h))
      have h3 : (calls ++ [reading "1" 1012]).length = m + 1 + n + 1 := by simp [calls]; omega
      omega

theorem climb_answer {m n k : ℕ} (hm : m = 100) (hn : n = 100) (hk : n = k + 1) :
    baroOutF nearest (fun x => nearest.rnd (Real.log x))
      (List.replicate (m + 1) (reading "0" 1013) ++ List.replicate n (reading "1" 1012)) (reading "1" 1012) = "1" := by
  obtain ⟨hpr, hcl, hclear⟩ := climb_clear hm hn
  rw [C161_answer nearest (rounded_log_good nearest) _ _ ?_ hclear]
  · obtain ⟨-, h⟩ := C26_hold (List.replicate (m + 1) (reading "0" 1013) ++ List.replicate k (reading "1" 1012)) (by simp)
      (reading "1" 1012) (reading "1" 1012)
    have e : List.replicate (m + 1) (reading "0" 1013) ++ List.replicate k (reading "1" 1012) ++ [reading "1" 1012] =
        List.replicate (m + 1) (reading "0" 1013) ++ List.replicate n (reading "1" 1012) := by
      rw [hk, List.replicate_succ' (n := k), List.append_assoc]
    have e2 : (List.replicate (m + 1) (reading "0" 1013) ++ List.replicate k (reading "1" 1012)) ++ [reading "1" 1012, reading "1" 1012] =
        List.replicate (m + 1) (reading "0" 1013) ++ List.replicate n (reading "1" 1012) ++ [reading "1" 1012] := by
      rw [← e]; simp
    rw [e, e2] at h
    refine (h ?_).1 hcl
    rw [hpr, List.length_append, List.length_replicate, List.length_replicate]
    omega
  · rw [hpr]
    intro p hp
    rcases List.mem_append.mp hp with hp | hp
    · rw [List.eq_of_mem_replicate hp]; norm_num
    · rw [List.eq_of_mem_replicate hp]; norm_num

/-- The hypotheses of `C161_answer` are met by 101 readings of 1013 millibar on the ground floor and 101 readings of 1012 millibar on the first;
the rounded barometer answers the first floor. -/
example : baroOutF nearest (fun x => nearest.rnd (Real.log x))
    (List.replicate 101 (reading "0" 1013) ++ List.replicate 100 (reading "1" 1012)) (reading "1" 1012) = "1" :=
  climb_answer (m := 100) (n := 100) (k := 99) rfl rfl rfl

end Verif.Fp
