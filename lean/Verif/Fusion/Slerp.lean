import Verif.Fusion.EulerProps
import Mathlib.Analysis.Convex.SpecificFunctions.Deriv
import Mathlib.Analysis.Calculus.Deriv.MeanValue
import Mathlib.Geometry.Euclidean.Angle.Unoriented.TriangleInequality
import Mathlib.Analysis.InnerProductSpace.PiL2

/-!
# Moving along a great circle

On the sphere, the distance to a point is convex on the half-sphere around it. Lemmas for C110, C112 and C114.
-/

namespace Verif.Fusion

/-- `sin (r x) / sin x` grows with `x`, for `0 ≤ r ≤ 1`. -/
theorem sin_ratio_mono (r : ℝ) (h0 : 0 ≤ r) (h1 : r ≤ 1) (c θ : ℝ) (hc : 0 < c) (hcθ : c ≤ θ) (hθ : θ < Real.pi) :
    Real.sin (r * c) / Real.sin c ≤ Real.sin (r * θ) / Real.sin θ := by
  have hsin : ∀ x, 0 < x → x < Real.pi → 0 < Real.sin x := fun x a b => Real.sin_pos_of_pos_of_lt_pi a b
  have hrx : ∀ x, 0 < x → x < Real.pi → 0 ≤ Real.sin (r * x) := fun x a b =>
    Real.sin_nonneg_of_nonneg_of_le_pi (by positivity) (by nlinarith)
  -- the numerator of the derivative
  have hN : ∀ x, 0 < x → x < Real.pi → 0 ≤ r * Real.cos (r * x) * Real.sin x - Real.sin (r * x) * Real.cos x := by
    intro x hx hx'
    have hmono : MonotoneOn (fun x => r * Real.cos (r * x) * Real.sin x - Real.sin (r * x) * Real.cos x) (Set.Icc 0 Real.pi) := by
      have hd : ∀ y, HasDerivAt (fun x => r * Real.cos (r * x) * Real.sin x - Real.sin (r * x) * Real.cos x)
          ((1 - r ^ 2) * (Real.sin (r * y) * Real.sin y)) y := by
        intro y
        have a1 : HasDerivAt (fun x => r * x) r y := by simpa using (hasDerivAt_id y).const_mul r
        have a2 := (Real.hasDerivAt_cos (r * y)).comp y a1
        have a3 := (Real.hasDerivAt_sin (r * y)).comp y a1
        have a4 := ((a2.const_mul r).mul (Real.hasDerivAt_sin y)).sub (a3.mul (Real.hasDerivAt_cos y))
        refine HasDerivAt.congr_deriv a4 ?_
        simp only [Function.comp]
        ring
      refine monotoneOn_of_deriv_nonneg (convex_Icc _ _) (fun y _ => (hd y).continuousAt.continuousWithinAt)
        (fun y _ => (hd y).differentiableAt.differentiableWithinAt) ?_
      intro y hy
      rw [interior_Icc] at hy
      rw [(hd y).deriv]
      have := mul_nonneg (hrx y hy.1 hy.2) (hsin y hy.1 hy.2).le
      exact mul_nonneg (by nlinarith) this
    have := hmono (Set.left_mem_Icc.mpr Real.pi_pos.le) ⟨hx.le, hx'.le⟩ hx.le
    simpa using this
  have hmono : MonotoneOn (fun x => Real.sin (r * x) / Real.sin x) (Set.Ioo 0 Real.pi) := by
    have hd : ∀ y ∈ Set.Ioo 0 Real.pi, HasDerivAt (fun x => Real.sin (r * x) / Real.sin x)
        ((r * Real.cos (r * y) * Real.sin y - Real.sin (r * y) * Real.cos y) / Real.sin y ^ 2) y := by
      intro y hy
      have a1 : HasDerivAt (fun x => r * x) r y := by simpa using (hasDerivAt_id y).const_mul r
      have a3 := (Real.hasDerivAt_sin (r * y)).comp y a1
      have a4 := a3.div (Real.hasDerivAt_sin y) (hsin y hy.1 hy.2).ne'
      refine HasDerivAt.congr_deriv a4 ?_
      simp only [Function.comp]
      ring
    refine monotoneOn_of_deriv_nonneg (convex_Ioo _ _) (fun y hy => (hd y hy).continuousAt.continuousWithinAt)
      (fun y hy => (hd y (interior_subset hy)).differentiableAt.differentiableWithinAt) ?_
    intro y hy
    rw [interior_Ioo] at hy
    rw [(hd y hy).deriv]
    exact div_nonneg (hN y hy.1 hy.2) (sq_nonneg _)
  exact hmono ⟨hc, by linarith⟩ ⟨by linarith, hθ⟩ hcθ

theorem sin_part (r : ℝ) (h0 : 0 ≤ r) (h1 : r ≤ 1) (θ : ℝ) (ht0 : 0 ≤ θ) (hθ : θ ≤ Real.pi) :
    r * Real.sin θ ≤ Real.sin (r * θ) := by
  have hc := strictConcaveOn_sin_Icc.concaveOn.2
  have := hc (show (0 : ℝ) ∈ Set.Icc 0 Real.pi from ⟨le_refl _, Real.pi_pos.le⟩) (show θ ∈ Set.Icc 0 Real.pi from ⟨ht0, hθ⟩)
    (show 0 ≤ 1 - r by linarith) h0 (by ring)
  simpa using this

/-- The point at the part `s` of the way from one point to another, at distance `θ` of it, is no farther from a third point than
the mean of the distances, if the two are at most a right angle away from the third. -/
theorem slerp_cos (θ e d s : ℝ) (hθ0 : 0 < θ) (hθ : θ < Real.pi) (he0 : 0 ≤ e) (he : e ≤ Real.pi / 2) (hd0 : 0 ≤ d)
    (hd : d ≤ Real.pi / 2) (h1 : |e - d| ≤ θ) (hs0 : 0 ≤ s) (hs1 : s ≤ 1) :
    Real.cos ((1 - s) * e + s * d) ≤ (Real.sin ((1 - s) * θ) * Real.cos e + Real.sin (s * θ) * Real.cos d) / Real.sin θ := by
  have hpi := Real.pi_pos
  have hsθ : 0 < Real.sin θ := Real.sin_pos_of_pos_of_lt_pi hθ0 hθ
  have hce : 0 ≤ Real.cos e := Real.cos_nonneg_of_neg_pi_div_two_le_of_le (by linarith) he
  have hcd : 0 ≤ Real.cos d := Real.cos_nonneg_of_neg_pi_div_two_le_of_le (by linarith) hd
  have hsum : (Real.sin ((1 - s) * θ) * Real.cos e + Real.sin (s * θ) * Real.cos d) / Real.sin θ =
      Real.sin ((1 - s) * θ) / Real.sin θ * Real.cos e + Real.sin (s * θ) / Real.sin θ * Real.cos d := by
    field_simp
  rw [hsum]
  rcases eq_or_ne e d with hed | hed
  · rw [← hed]
    have e1 : (1 - s) * e + s * e = e := by ring
    rw [e1]
    have p1 : 1 - s ≤ Real.sin ((1 - s) * θ) / Real.sin θ := by
      rw [le_div_iff₀ hsθ]
      exact sin_part _ (by linarith) (by linarith) _ hθ0.le hθ.le
    have p2 : s ≤ Real.sin (s * θ) / Real.sin θ := by
      rw [le_div_iff₀ hsθ]
      exact sin_part _ hs0 hs1 _ hθ0.le hθ.le
    have := mul_le_mul_of_nonneg_right (add_le_add p1 p2) hce
    linarith
  · have hc : 0 < |e - d| := abs_pos.mpr (sub_ne_zero.mpr hed)
    have hcpi : |e - d| < Real.pi := by
      rw [abs_lt]; constructor <;> linarith
    have m1 := mul_le_mul_of_nonneg_right (sin_ratio_mono (1 - s) (by linarith) (by linarith) _ _ hc h1 hθ) hce
    have m2 := mul_le_mul_of_nonneg_right (sin_ratio_mono s hs0 hs1 _ _ hc h1 hθ) hcd
    have hsc : Real.sin |e - d| ≠ 0 := (Real.sin_pos_of_pos_of_lt_pi hc hcpi).ne'
    have key : Real.cos ((1 - s) * e + s * d) =
        Real.sin ((1 - s) * |e - d|) / Real.sin |e - d| * Real.cos e + Real.sin (s * |e - d|) / Real.sin |e - d| * Real.cos d := by
      have gen : ∀ c : ℝ, Real.sin c ≠ 0 → (c = e - d ∨ c = d - e) →
          Real.cos ((1 - s) * e + s * d) =
            Real.sin ((1 - s) * c) / Real.sin c * Real.cos e + Real.sin (s * c) / Real.sin c * Real.cos d := by
        intro c hc0 hcc
        have i : ∀ a b : ℝ, Real.sin ((1 - s) * (b - a)) * Real.cos a + Real.sin (s * (b - a)) * Real.cos b =
            Real.sin (b - a) * Real.cos ((1 - s) * a + s * b) := by
          intro a b
          -- with p = (1-s)(b-a) and q = s(b-a): a = x - q, b = x + p, x the mean
          have ea : a = ((1 - s) * a + s * b) - s * (b - a) := by ring
          have eb : b = ((1 - s) * a + s * b) + (1 - s) * (b - a) := by ring
          have eba : Real.sin (b - a) = Real.sin ((1 - s) * (b - a) + s * (b - a)) := by congr 1; ring
          rw [eba]
          generalize hx : (1 - s) * a + s * b = x at *
          generalize (1 - s) * (b - a) = p at *
          generalize s * (b - a) = q at *
          rw [ea, eb, Real.cos_sub, Real.cos_add, Real.sin_add]
          ring
        rcases hcc with rfl | rfl
        · have := i e d
          have o1 : Real.sin ((1 - s) * (d - e)) = -Real.sin ((1 - s) * (e - d)) := by
            rw [← Real.sin_neg]; congr 1; ring
          have o2 : Real.sin (s * (d - e)) = -Real.sin (s * (e - d)) := by rw [← Real.sin_neg]; congr 1; ring
          have o3 : Real.sin (d - e) = -Real.sin (e - d) := by rw [← Real.sin_neg]; congr 1; ring
          rw [o1, o2, o3] at this
          field_simp
          linarith
        · have := i e d
          field_simp
          linarith
      refine gen _ hsc ?_
      rcases abs_choice (e - d) with h | h
      · exact .inl h
      · exact .inr (by rw [h]; ring)
    rw [key]
    exact add_le_add m1 m2

end Verif.Fusion
