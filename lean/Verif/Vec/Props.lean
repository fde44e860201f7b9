import Verif.Vec.Model
import Mathlib.Analysis.InnerProductSpace.PiL2
import Mathlib.LinearAlgebra.CrossProduct
import Mathlib.Analysis.SpecialFunctions.Sqrt

/-!
# Property theorems for the public vector type: C98

The specification is Mathlib's Euclidean space: its norm, inner product, sum, and the cross product of
`Fin 3 → ℝ`.
-/

namespace Verif.Vec

open Verif Verif.Pedo Verif.Fusion Matrix

/-- The vector as an element of Euclidean space. -/
noncomputable def toE (v : Vector3d) : EuclideanSpace ℝ (Fin 3) := !₂[v.x, v.y, v.z]

theorem toE_inj (a b : Vector3d) (h : toE a = toE b) : a = b := by
  have h0 := congrFun (congrArg WithLp.ofLp h) 0
  have h1 := congrFun (congrArg WithLp.ofLp h) 1
  have h2 := congrFun (congrArg WithLp.ofLp h) 2
  simp [toE] at h0 h1 h2
  cases a; cases b; simp_all

theorem magnitude_norm (v : Vector3d) : magnitude v = ‖toE v‖ := by
  rw [EuclideanSpace.norm_eq, magnitude]
  congr 1
  simp [toE, Fin.sum_univ_three, sq_abs]
  ring

theorem EPSILON_pos : 0 < EPSILON := by unfold EPSILON; positivity

/-- **C98.** `magnitude` is the Euclidean norm, `dotProduct` the inner product, `crossProduct` the cross product. -/
theorem C98_products (a b : Vector3d) :
    magnitude a = ‖toE a‖ ∧ dotProduct a b = inner ℝ (toE a) (toE b) ∧
      (toE (cross a b)).ofLp = crossProduct (toE a).ofLp (toE b).ofLp := by
  refine ⟨magnitude_norm a, ?_, ?_⟩
  · simp [toE, dotProduct, PiLp.inner_apply, Fin.sum_univ_three]
    ring
  · simp [toE, cross, crossProduct]

/-- **C98.** The cross product is perpendicular to both factors and its squared length completes the square of the
scalar product to the product of the squared lengths. -/
theorem C98_cross (a b : Vector3d) :
    dotProduct (cross a b) a = 0 ∧ dotProduct (cross a b) b = 0 ∧ cross b a = vneg (cross a b) ∧
      magnitude (cross a b) ^ 2 + dotProduct a b ^ 2 = magnitude a ^ 2 * magnitude b ^ 2 := by
  have hs : ∀ v : Vector3d, magnitude v ^ 2 = v.x * v.x + v.y * v.y + v.z * v.z := fun v =>
    Real.sq_sqrt (by nlinarith [mul_self_nonneg v.x, mul_self_nonneg v.y, mul_self_nonneg v.z])
  refine ⟨?_, ?_, ?_, ?_⟩
  · simp only [dotProduct, cross]; ring
  · simp only [dotProduct, cross]; ring
  · simp only [vneg, cross, Vector3d.mk.injEq]
    refine ⟨?_, ?_, ?_⟩ <;> ring
  · rw [hs, hs, hs]; simp only [dotProduct, cross]; ring

/-- **C98.** The arithmetic operators are those of the vector space; the assigning operators agree with the others. -/
theorem C98_linear (a b : Vector3d) (k : ℝ) :
    toE (vadd a b) = toE a + toE b ∧ addAssign a b = vadd a b ∧
      toE (vsub a b) = toE a - toE b ∧ subAssign a b = vsub a b ∧ toE (vneg a) = -toE a ∧
      toE (vscale k a) = k • toE a ∧ mulAssign a k = vscale k a ∧
      (∀ q, vdiv a k = some q ↔ k ≠ 0 ∧ k • toE q = toE a) ∧ divAssign a k = vdiv a k := by
  refine ⟨?_, rfl, ?_, rfl, ?_, ?_, rfl, ?_, rfl⟩
  · ext i; fin_cases i <;> simp [toE, vadd]
  · ext i; fin_cases i <;> simp [toE, vsub]
  · ext i; fin_cases i <;> simp [toE, vneg]
  · ext i; fin_cases i <;> simp [toE, vscale, mul_comm]
  · intro q
    unfold vdiv
    by_cases hk : k = 0
    · rw [if_pos hk]; simp [hk]
    · rw [if_neg hk, Option.some.injEq]
      constructor
      · rintro rfl
        refine ⟨hk, ?_⟩
        ext i; fin_cases i <;> simp [toE] <;> field_simp
      · rintro ⟨-, h⟩
        have h0 := congrFun (congrArg WithLp.ofLp h) 0
        have h1 := congrFun (congrArg WithLp.ofLp h) 1
        have h2 := congrFun (congrArg WithLp.ofLp h) 2
        simp [toE] at h0 h1 h2
        rw [← h0, ← h1, ← h2]
        cases q
        simp [hk]

/-- **C98.** A vector longer than the machine epsilon is normalised to length one with the same direction; any other
is left as it is. `normalize` does the same in place and never divides by zero. -/
theorem C98_normalized (v : Vector3d) :
    (EPSILON < ‖toE v‖ → ‖toE (vnormalized v)‖ = 1 ∧ toE v = ‖toE v‖ • toE (vnormalized v)) ∧
      (‖toE v‖ ≤ EPSILON → vnormalized v = v) ∧ normalize v = some (vnormalized v) := by
  have hm := magnitude_norm v
  have habs : |magnitude v| = ‖toE v‖ := by rw [hm, abs_of_nonneg (norm_nonneg _)]
  refine ⟨fun h => ?_, fun h => ?_, ?_⟩
  · have hp : ‖toE v‖ ≠ 0 := (EPSILON_pos.trans h).ne'
    have hn : toE v = ‖toE v‖ • toE (vnormalized v) := by
      rw [vnormalized_eq]
      rw [if_pos (by rw [habs]; exact h), hm]
      generalize ‖toE v‖ = r at hp
      ext i; fin_cases i <;> simp [toE] <;> field_simp
    refine ⟨?_, hn⟩
    have := congrArg norm hn
    rw [norm_smul, norm_norm] at this
    exact (mul_left_cancel₀ hp (by rw [mul_one]; exact this)).symm
  · rw [vnormalized_eq]
    rw [if_neg (by rw [habs]; exact not_lt.mpr h)]
  · unfold normalize divAssign
    rw [vnormalized_eq]
    dsimp only
    split_ifs with h h0
    · rw [h0, abs_zero] at h
      exact absurd h (not_lt.mpr EPSILON_pos.le)
    · rfl
    · rfl

/-- **C98.** Two vectors compare equal iff no coordinate differs by `1e-8` or more: vectors at a distance below `1e-8`
compare equal, vectors at a distance of at least `√3 · 1e-8` do not. `!=` is the negation. -/
theorem C98_equal (a b : Vector3d) :
    (equal a b ↔ ∀ i, |(toE a).ofLp i - (toE b).ofLp i| < 1e-8) ∧
      (‖toE a - toE b‖ < 1e-8 → equal a b) ∧ (√3 * 1e-8 ≤ ‖toE a - toE b‖ → notEqual a b) ∧
      (notEqual a b ↔ ¬ equal a b) ∧ equal a a ∧ (equal a b → equal b a) := by
  have hn : ‖toE a - toE b‖ = Real.sqrt ((a.x - b.x) ^ 2 + (a.y - b.y) ^ 2 + (a.z - b.z) ^ 2) := by
    rw [EuclideanSpace.norm_eq]
    simp [toE, Fin.sum_univ_three, sq_abs]
  have hx := sq_nonneg (a.x - b.x)
  have hy := sq_nonneg (a.y - b.y)
  have hz := sq_nonneg (a.z - b.z)
  have hd : (0 : ℝ) < 1e-8 := by norm_num
  refine ⟨?_, fun h => ?_, fun h he => ?_, Iff.rfl, ?_, fun h => ?_⟩
  · simp [Fin.forall_fin_succ, toE, equal, DOUBLE_EPSILON]
  · rw [hn, Real.sqrt_lt' hd] at h
    refine ⟨?_, ?_, ?_⟩ <;> unfold DOUBLE_EPSILON <;> refine abs_lt_of_sq_lt_sq ?_ hd.le <;> linarith
  · obtain ⟨h1, h2, h3⟩ := he
    unfold DOUBLE_EPSILON at h1 h2 h3
    have g1 := sq_lt_sq' (abs_lt.mp h1).1 (abs_lt.mp h1).2
    have g2 := sq_lt_sq' (abs_lt.mp h2).1 (abs_lt.mp h2).2
    have g3 := sq_lt_sq' (abs_lt.mp h3).1 (abs_lt.mp h3).2
    refine absurd h (not_le.mpr ?_)
    rw [hn, show √3 * (1e-8 : ℝ) = Real.sqrt (3 * 1e-8 ^ 2) by
      rw [Real.sqrt_mul (by norm_num), Real.sqrt_sq hd.le]]
    exact Real.sqrt_lt_sqrt (by linarith) (by linarith)
  · have : (0 : ℝ) < DOUBLE_EPSILON := hd
    simp [equal, this]
  · unfold equal at h ⊢
    rw [abs_sub_comm b.x, abs_sub_comm b.y, abs_sub_comm b.z]
    exact h

/-- **C98 (finding).** The comparison is not an equivalence: equal to the middle vector does not make the outer two
equal. -/
theorem C98_not_transitive : ∃ a b c : Vector3d, equal a b ∧ equal b c ∧ notEqual a c := by
  refine ⟨⟨0, 0, 0⟩, ⟨0.9e-8, 0, 0⟩, ⟨1.8e-8, 0, 0⟩, ?_, ?_, ?_⟩ <;>
    simp only [notEqual, equal, DOUBLE_EPSILON] <;> norm_num [abs_of_pos]

/-- **C98.** `isNull` holds for the zero vector only; it is not "equal to zero" in the sense of `==`. -/
theorem C98_null (v : Vector3d) : (isNull v ↔ toE v = 0) ∧
    ∃ w : Vector3d, ¬ isNull w ∧ equal w ⟨0, 0, 0⟩ := by
  refine ⟨⟨fun h => ?_, fun h => ?_⟩, ⟨1e-9, 0, 0⟩, ?_, ?_⟩
  · obtain ⟨h1, h2, h3⟩ := h
    ext i; fin_cases i <;> simp [toE, h1, h2, h3]
  · have h0 := congrFun (congrArg WithLp.ofLp h) 0
    have h1 := congrFun (congrArg WithLp.ofLp h) 1
    have h2 := congrFun (congrArg WithLp.ofLp h) 2
    simp [toE] at h0 h1 h2
    exact ⟨h0, h1, h2⟩
  · unfold isNull; norm_num
  · unfold equal DOUBLE_EPSILON; norm_num [abs_of_pos]

/-- Non-vacuity: a vector of length 5 is normalised. -/
example : vnormalized ⟨3, 0, 4⟩ = ⟨3 / 5, 0, 4 / 5⟩ := by
  have h5 : magnitude ⟨3, 0, 4⟩ = 5 := by
    unfold magnitude
    rw [show (3 * 3 + 0 * 0 + 4 * 4 : ℝ) = 5 ^ 2 by norm_num, Real.sqrt_sq (by norm_num)]
  have he : EPSILON < 5 := by unfold EPSILON; norm_num
  rw [vnormalized_eq]
  rw [h5, if_pos (by rw [abs_of_pos (by norm_num)]; exact he)]
  norm_num

end Verif.Vec
