import Verif.Fp.Model
import Mathlib.Data.Int.Log
import Mathlib.Algebra.Order.Round

/-! # Roundings: none at all, and to the nearest number of 53 binary digits -/

namespace Verif.Fp

/-- No rounding: the arithmetic of ℝ. -/
noncomputable def exact : Rounding where
  rnd := id
  near := fun x => by
    simp only [id, sub_self, abs_zero]
    have : 0 < u := by unfold u; positivity
    have : 0 < tiny := by unfold tiny; positivity
    positivity
  mono := monotone_id
  zero := rfl
  idem := fun _ => rfl

/-- The exponent of the unit in the last place of a number: 53 binary digits, but none below `2⁻¹⁰⁷⁴`. -/
noncomputable def ulpExp (x : ℝ) : ℤ := if x = 0 then -1074 else max (Int.log 2 |x| - 52) (-1074)

theorem ulpExp_ge (x : ℝ) : -1074 ≤ ulpExp x := by
  unfold ulpExp
  split_ifs
  · exact le_rfl
  · exact le_max_right _ _

/-- The nearest number of 53 binary digits (of two, the greater). -/
noncomputable def nearestRnd (x : ℝ) : ℝ := (round (x / 2 ^ ulpExp x) : ℤ) * (2 : ℝ) ^ ulpExp x

theorem two_zpow_pos (e : ℤ) : (0 : ℝ) < 2 ^ e := zpow_pos (by norm_num) e

theorem abs_lt_ulp (x : ℝ) : |x| < 2 ^ (ulpExp x + 53) := by
  by_cases h0 : x = 0
  · rw [h0, abs_zero]; exact two_zpow_pos _
  have h := Int.lt_zpow_succ_log_self (b := 2) (by norm_num) |x|
  refine h.trans_le ?_
  have : Int.log 2 |x| + 1 ≤ ulpExp x + 53 := by
    have := le_max_left (Int.log 2 |x| - 52) (-1074)
    unfold ulpExp
    rw [if_neg h0]
    linarith
  push_cast
  exact zpow_le_zpow_right₀ (by norm_num) this

theorem ulp_le (x : ℝ) (h : -1074 < ulpExp x) : (2 : ℝ) ^ (ulpExp x + 52) ≤ |x| := by
  have h0 : x ≠ 0 := by
    rintro rfl
    unfold ulpExp at h
    rw [if_pos rfl] at h
    omega
  have h1 : ulpExp x = Int.log 2 |x| - 52 := by
    unfold ulpExp at h ⊢
    rw [if_neg h0] at h ⊢
    rcases max_cases (Int.log 2 |x| - 52) (-1074) with ⟨h2, -⟩ | ⟨h2, -⟩ <;> omega
  have hx : 0 < |x| := abs_pos.mpr h0
  have := Int.zpow_log_le_self (b := 2) (by norm_num) hx
  rw [h1]
  simpa using this

theorem nearest_near (x : ℝ) : |nearestRnd x - x| ≤ u * |x| + tiny := by
  have hp := two_zpow_pos (ulpExp x)
  have h1 : |nearestRnd x - x| ≤ 2 ^ ulpExp x / 2 := by
    have h2 := abs_sub_round (x / 2 ^ ulpExp x)
    have e : nearestRnd x - x = -((x / 2 ^ ulpExp x - round (x / 2 ^ ulpExp x)) * 2 ^ ulpExp x) := by
      unfold nearestRnd; field_simp; ring
    rw [e, abs_neg, abs_mul, abs_of_pos hp]
    have := mul_le_mul_of_nonneg_right h2 hp.le
    linarith
  refine h1.trans ?_
  have hu : 0 < u := by unfold u; positivity
  have ht : 0 < tiny := by unfold tiny; positivity
  by_cases h : -1074 < ulpExp x
  · have h2 := mul_le_mul_of_nonneg_left (ulp_le x h) hu.le
    have e : u * 2 ^ (ulpExp x + 52) = 2 ^ ulpExp x / 2 := by
      unfold u
      rw [← zpow_add₀ (by norm_num), show (-53 : ℤ) + (ulpExp x + 52) = ulpExp x - 1 by ring, zpow_sub₀ (by norm_num), zpow_one]
    linarith
  · have h2 : ulpExp x = -1074 := le_antisymm (not_lt.mp h) (ulpExp_ge _)
    rw [h2]
    have e : (2 : ℝ) ^ (-1074 : ℤ) / 2 = tiny := by
      unfold tiny
      rw [show (-1075 : ℤ) = -1074 - 1 by ring, zpow_sub₀ (by norm_num), zpow_one]
    rw [e]
    have := mul_nonneg hu.le (abs_nonneg x)
    linarith

theorem round_mono : Monotone (round : ℝ → ℤ) := by
  intro a b h
  rw [round_eq, round_eq]
  exact Int.floor_mono (by linarith)

/-- Rounding does not cross a multiple of the unit. -/
theorem nearest_ge (x : ℝ) (n : ℤ) (h : (n : ℝ) * 2 ^ ulpExp x ≤ x) : (n : ℝ) * 2 ^ ulpExp x ≤ nearestRnd x := by
  have hp := two_zpow_pos (ulpExp x)
  apply mul_le_mul_of_nonneg_right _ hp.le
  have := round_mono ((le_div_iff₀ hp).mpr h)
  rw [round_intCast] at this
  exact_mod_cast this

theorem nearest_le (x : ℝ) (n : ℤ) (h : x ≤ (n : ℝ) * 2 ^ ulpExp x) : nearestRnd x ≤ (n : ℝ) * 2 ^ ulpExp x := by
  have hp := two_zpow_pos (ulpExp x)
  apply mul_le_mul_of_nonneg_right _ hp.le
  have := round_mono ((div_le_iff₀ hp).mpr h)
  rw [round_intCast] at this
  exact_mod_cast this

theorem pow_split (e : ℤ) (n : ℕ) : (2 : ℝ) ^ (e + n) = ((2 ^ n : ℤ) : ℝ) * 2 ^ e := by
  rw [zpow_add₀ (by norm_num), mul_comm]; push_cast; rw [zpow_natCast]

theorem nearest_mono : Monotone nearestRnd := by
  intro x y hxy
  have px := two_zpow_pos (ulpExp x)
  have py := two_zpow_pos (ulpExp y)
  rcases lt_trichotomy (ulpExp x) (ulpExp y) with h | h | h
  · have hy := ulp_le y (lt_of_le_of_lt (ulpExp_ge _) h)
    have hx := abs_lt_ulp x
    have hle : (2 : ℝ) ^ (ulpExp x + 53) ≤ 2 ^ (ulpExp y + 52) := zpow_le_zpow_right₀ (by norm_num) (by omega)
    have hy0 : 0 ≤ y := by
      by_contra hn
      have h1 : |y| = -y := abs_of_neg (not_le.mp hn)
      have h2 := neg_le_abs x
      linarith
    rw [abs_of_nonneg hy0] at hy
    have a1 := nearest_le x (2 ^ 53) (by rw [← pow_split _ 53]; exact (le_abs_self x).trans hx.le)
    have a2 := nearest_ge y (2 ^ 52) (by rw [← pow_split _ 52]; exact hy)
    rw [← pow_split _ 53] at a1
    rw [← pow_split _ 52] at a2
    exact a1.trans (hle.trans a2)
  · unfold nearestRnd
    rw [h]
    apply mul_le_mul_of_nonneg_right _ py.le
    exact_mod_cast round_mono (div_le_div_of_nonneg_right hxy py.le)
  · have hx := ulp_le x (lt_of_le_of_lt (ulpExp_ge _) h)
    have hy := abs_lt_ulp y
    have hle : (2 : ℝ) ^ (ulpExp y + 53) ≤ 2 ^ (ulpExp x + 52) := zpow_le_zpow_right₀ (by norm_num) (by omega)
    have hx0 : x ≤ 0 := by
      by_contra hn
      have h1 : |x| = x := abs_of_pos (not_le.mp hn)
      have h2 := le_abs_self y
      linarith
    rw [abs_of_nonpos hx0] at hx
    have a1 := nearest_le x (-2 ^ 52) (by
      have := pow_split (ulpExp x) 52
      push_cast at this ⊢
      linarith)
    have a2 := nearest_ge y (-2 ^ 53) (by
      have := pow_split (ulpExp y) 53
      have := neg_abs_le y
      push_cast at *
      linarith)
    have e1 := pow_split (ulpExp x) 52
    have e2 := pow_split (ulpExp y) 53
    push_cast at *
    linarith

theorem nearest_fix (x : ℝ) (n : ℤ) (h : x = (n : ℝ) * 2 ^ ulpExp x) : nearestRnd x = x :=
  le_antisymm ((nearest_le x n h.le).trans h.ge) (h.le.trans (nearest_ge x n h.ge))

theorem nearest_idem (x : ℝ) : nearestRnd (nearestRnd x) = nearestRnd x := by
  set r := nearestRnd x with hr
  have px := two_zpow_pos (ulpExp x)
  -- the unit of the result is that of `x`, or greater with the result a power of two
  have hm : r = (round (x / 2 ^ ulpExp x) : ℤ) * (2 : ℝ) ^ ulpExp x := rfl
  set k := round (x / 2 ^ ulpExp x) with hk
  by_cases h : ulpExp r ≤ ulpExp x
  · apply nearest_fix r (k * 2 ^ (ulpExp x - ulpExp r).toNat)
    have : (2 : ℝ) ^ ulpExp x = 2 ^ (ulpExp x - ulpExp r).toNat * 2 ^ ulpExp r := by
      rw [← zpow_natCast, ← zpow_add₀ (by norm_num)]
      congr 1
      omega
    conv_lhs => rw [hm]
    rw [this]
    push_cast
    ring
  · have h1 := ulp_le r (lt_of_le_of_lt (ulpExp_ge _) (not_le.mp h))
    have hx := abs_lt_ulp x
    have hup : r ≤ 2 ^ (ulpExp x + 53) := by
      have := nearest_le x (2 ^ 53) (by rw [← pow_split _ 53]; exact (le_abs_self x).trans hx.le)
      rwa [← pow_split _ 53] at this
    have hlo : -2 ^ (ulpExp x + 53) ≤ r := by
      have := nearest_ge x (-2 ^ 53) (by
        have := pow_split (ulpExp x) 53
        have := neg_abs_le x
        push_cast at *
        linarith)
      have e2 := pow_split (ulpExp x) 53
      push_cast at *
      linarith
    have hle : (2 : ℝ) ^ (ulpExp x + 53) ≤ 2 ^ (ulpExp r + 52) := zpow_le_zpow_right₀ (by norm_num) (by omega)
    have habs : |r| = 2 ^ (ulpExp r + 52) := le_antisymm ((abs_le.mpr ⟨hlo, hup⟩).trans hle) h1
    rcases abs_cases r with ⟨h2, -⟩ | ⟨h2, -⟩
    · apply nearest_fix r (2 ^ 52)
      rw [← pow_split _ 52]
      exact h2.symm.trans habs
    · apply nearest_fix r (-2 ^ 52)
      have e2 := pow_split (ulpExp r) 52
      push_cast at *
      linarith

/-- Rounding to the nearest number of 53 binary digits is a rounding in the sense of the model. -/
noncomputable def nearest : Rounding where
  rnd := nearestRnd
  near := nearest_near
  mono := nearest_mono
  zero := by unfold nearestRnd; simp
  idem := nearest_idem

end Verif.Fp
