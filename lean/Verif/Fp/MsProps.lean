import Verif.Fp.MeanExample

/-!
# Property theorems for C139: times of the settings in whole milliseconds
-/

namespace Verif.Fp

open Verif.Levels Verif.Post

variable (R : Rounding)

/-- `t` is what a settings file with a time of `n` milliseconds, written in seconds, gives: the `double` of `n / 1000`. -/
def Seconds (t : ℝ) (n : ℤ) : Prop := t = R.rnd (n / 1000)

theorem thousand_near {n : ℤ} (h : |n| ≤ 10 ^ 9) : |R.rnd (1000 * R.rnd (n / 1000)) - n| ≤ 1 / 10 ^ 6 := by
  have hj : |(n : ℝ)| ≤ 10 ^ 9 := by exact_mod_cast h
  have h1 := rnd_bound R ((n : ℝ) / 1000) (10 ^ 6) (by rw [abs_div, abs_of_pos (by norm_num : (0 : ℝ) < 1000)]; linarith)
  have ht := tiny_le20
  rw [u_eq] at h1
  have h1' : |R.rnd (n / 1000) - n / 1000| ≤ 2 / 10 ^ 10 := h1.trans (by
    have : (1 : ℝ) / 2 ^ 53 * 10 ^ 6 ≤ 1.2 / 10 ^ 10 := by norm_num
    have : (1 : ℝ) / 10 ^ 20 ≤ 0.1 / 10 ^ 10 := by norm_num
    linarith)
  have h2 : |1000 * R.rnd (n / 1000) - n| ≤ 2 / 10 ^ 7 := by
    have : 1000 * R.rnd (n / 1000) - n = (R.rnd (n / 1000) - n / 1000) * 1000 := by ring
    rw [this, abs_mul, abs_of_pos (by norm_num : (0 : ℝ) < 1000)]
    linarith
  have h3 : |1000 * R.rnd (n / 1000)| ≤ 2 * 10 ^ 9 := by
    have e := abs_sub_abs_le_abs_sub (1000 * R.rnd (n / 1000)) n
    linarith
  have h4 := rnd_bound R _ _ h3
  rw [u_eq] at h4
  have h4' : |R.rnd (1000 * R.rnd (n / 1000)) - 1000 * R.rnd (n / 1000)| ≤ 3 / 10 ^ 7 := h4.trans (by
    have : (1 : ℝ) / 2 ^ 53 * (2 * 10 ^ 9) ≤ 2.9 / 10 ^ 7 := by norm_num
    have : (1 : ℝ) / 10 ^ 20 ≤ 0.1 / 10 ^ 7 := by norm_num
    linarith)
  have h5 := abs_sub_le (R.rnd (1000 * R.rnd (n / 1000))) (1000 * R.rnd (n / 1000)) n
  have : (2 : ℝ) / 10 ^ 7 + 3 / 10 ^ 7 ≤ 1 / 10 ^ 6 := by norm_num
  linarith

/-- **C139.** A time of `n` milliseconds in the settings, written in seconds, counts as `n` milliseconds or as one less. -/
theorem C139_milliseconds {t : ℝ} {n : ℤ} (h0 : 0 ≤ n) (h1 : n ≤ 10 ^ 9) (ht : Seconds R t n) :
    millisF R t = n ∨ (0 < n ∧ millisF R t = n - 1) := by
  have h := thousand_near R (n := n) (by rw [abs_of_nonneg h0]; exact h1)
  rw [← show t = R.rnd (n / 1000) from ht, abs_le] at h
  have hpos : 0 ≤ R.rnd (1000 * t) := by
    rw [← R.zero]
    refine R.mono (mul_nonneg (by norm_num) ?_)
    rw [show t = R.rnd (n / 1000) from ht, ← R.zero]
    refine R.mono (div_nonneg (by exact_mod_cast h0) (by norm_num))
  unfold millisF toLongLong
  rw [if_pos hpos]
  have a1 : n - 1 ≤ ⌊R.rnd (1000 * t)⌋ := by
    rw [Int.le_floor]
    push_cast
    linarith [h.1, show (1 : ℝ) / 10 ^ 6 ≤ 1 by norm_num]
  have a2 : ⌊R.rnd (1000 * t)⌋ < n + 1 := by
    rw [Int.floor_lt]
    push_cast
    linarith [h.2, show (1 : ℝ) / 10 ^ 6 < 1 by norm_num]
  have a3 : 0 ≤ ⌊R.rnd (1000 * t)⌋ := Int.floor_nonneg.mpr hpos
  omega

/-- **C139, eighths.** Whole eighths of a second, in particular whole, half and quarter seconds, count exactly. -/
theorem C139_eighths (hR : Binary R) {t : ℝ} {k : ℤ} (h0 : 0 ≤ k) (h1 : k ≤ 10 ^ 9) (ht : Seconds R t (125 * k)) :
    t = k / 8 ∧ millisF R t = 125 * k := by
  have hk : |k| ≤ 2 ^ 53 := by rw [abs_of_nonneg h0]; exact h1.trans (by norm_num)
  have e1 : t = k / 8 := by
    rw [show t = R.rnd ((125 * k : ℤ) / 1000) from ht]
    have e := hR k (-3) hk (by norm_num)
    have e8 : (2 : ℝ) ^ (-3 : ℤ) = 1 / 8 := by norm_num [zpow_neg]
    rw [e8] at e
    rw [show (((125 * k : ℤ) : ℝ) / 1000) = k * (1 / 8) by push_cast; ring, e]
    ring
  refine ⟨e1, ?_⟩
  unfold millisF toLongLong
  have e2 : R.rnd (1000 * t) = ((125 * k : ℤ) : ℝ) := by
    rw [e1, show (1000 * ((k : ℝ) / 8)) = ((125 * k : ℤ) : ℝ) by push_cast; ring]
    exact rnd_int R hR (by rw [abs_of_nonneg (by omega)]; omega)
  have e3 : (0 : ℝ) ≤ ((125 * k : ℤ) : ℝ) := by exact_mod_cast (by omega : 0 ≤ 125 * k)
  rw [e2, if_pos e3, Int.floor_intCast]

/-- **C139, stops.** So with a stop detection time of `n` milliseconds the user counts as standing still from `n` milliseconds after
the last step on, or from one millisecond earlier on, and never earlier. -/
theorem C139_stop {cs : CommonSettings} {n : ℤ} (h0 : 0 ≤ n) (h1 : n ≤ 10 ^ 9) (ht : Seconds R cs.stopDetectionTime n)
    (s : PostState) (ts : Int) (hs : 0 < s.lastStepTs) :
    (n ≤ ts - s.lastStepTs → stopDetectedF R cs s ts) ∧ (stopDetectedF R cs s ts → n - 1 ≤ ts - s.lastStepTs) := by
  have h := C139_milliseconds R h0 h1 ht
  unfold stopDetectedF
  constructor
  · intro ha
    refine ⟨hs, ?_⟩
    omega
  · rintro ⟨-, hb⟩
    omega

/-- **C139, witness.** 2.01 seconds are 2009 milliseconds. -/
theorem C139_witness : millisF nearest (nearest.rnd (201 / 100)) = 2009 := by
  have e51 := zp 51
  have e42 := zp 42
  push_cast at e51 e42
  have r1 : nearest.rnd (201 / 100) = 4526117625507348 * (1 / 2 ^ 51) := by
    rw [nearest_value (-51) 4526117625507348 (by norm_num) (by norm_num) (by norm_num) (by rw [e51]; norm_num)
      (by rw [e51]; norm_num), e51]
    norm_num
  have r2 : nearest.rnd (1000 * (4526117625507348 * (1 / 2 ^ 51))) = 8840073487319039 * (1 / 2 ^ 42) := by
    rw [nearest_value (-42) 8840073487319039 (by norm_num) (by norm_num) (by norm_num) (by rw [e42]; norm_num)
      (by rw [e42]; norm_num), e42]
    norm_num
  unfold millisF toLongLong
  rw [r1, r2, if_pos (by norm_num), Int.floor_eq_iff]
  norm_num

/-- A settings file with 2.01 seconds. -/
example : Seconds nearest (nearest.rnd (201 / 100)) 2010 := by
  show _ = _
  norm_num

end Verif.Fp
