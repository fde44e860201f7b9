import Verif.Geometry.Lemmas
import Mathlib.Tactic.Linarith
import Mathlib.Tactic.FieldSimp
import Mathlib.Tactic.Positivity
import Mathlib.Tactic.LinearCombination

/-!
# C04, C05, C06, C07, C09: planar geometry
-/

namespace Verif.Geometry

open Verif.Geo (XYPoint)

/-- **C04.** For a segment that is not degenerate the result is the least distance from the point
to the points of the segment, and it is attained. -/
theorem C04_segment_distance (p1 p2 p : XYPoint) (h : eps ≤ sqDist p1 p2) :
    IsLeast {d | ∃ q, OnSegment p1 p2 q ∧ d = dist p q} (segmentPointDist p1 p2 p) := by
  have hlen : eps ≤ (p2.x - p1.x) * (p2.x - p1.x) + (p2.y - p1.y) * (p2.y - p1.y) := by
    unfold sqDist at h; linarith
  have hpos := lt_of_lt_of_le eps_pos hlen
  have hval : segmentPointDist p1 p2 p = dist p (along p1 p2
      (min (max (((p.x - p1.x) * (p2.x - p1.x) + (p.y - p1.y) * (p2.y - p1.y)) /
      ((p2.x - p1.x) * (p2.x - p1.x) + (p2.y - p1.y) * (p2.y - p1.y))) 0) 1)) := by
    rw [segmentPointDist_eq]
    simp only [not_lt.mpr hlen, if_false]
    unfold dist sqDist along
    congr 1; ring
  constructor
  · exact ⟨_, ⟨_, le_min (le_max_right _ _) zero_le_one, min_le_right _ _, rfl⟩, hval⟩
  · rintro d ⟨q, ⟨t, ht0, ht1, rfl⟩, rfl⟩
    rw [hval]
    exact Real.sqrt_le_sqrt (clamp_minimises p1 p2 p t ht0 ht1 hpos)

example : ∃ p1 p2 : XYPoint, eps ≤ sqDist p1 p2 := ⟨⟨0, 0⟩, ⟨3, 4⟩, by unfold eps sqDist; norm_num⟩

/-- **C04.** For a degenerate segment the answer is the distance to its first end, which
over-estimates the true distance by less than `1e-4`. -/
theorem C04_degenerate (p1 p2 p : XYPoint) (h : sqDist p1 p2 < eps) :
    segmentPointDist p1 p2 p = dist p p1 ∧
    ∀ q, OnSegment p1 p2 q → segmentPointDist p1 p2 p < dist p q + 1e-4 := by
  have hlen : (p2.x - p1.x) * (p2.x - p1.x) + (p2.y - p1.y) * (p2.y - p1.y) < eps := by
    unfold sqDist at h; linarith
  have hval : segmentPointDist p1 p2 p = dist p p1 := by
    rw [segmentPointDist_eq]
    simp only [hlen, if_true]
    rw [getDist_eq_dist, dist_comm]
  refine ⟨hval, ?_⟩
  rintro q ⟨t, ht0, ht1, rfl⟩
  rw [hval]
  have h1 := dist_triangle p (along p1 p2 t) p1
  have h2 : dist (along p1 p2 t) p1 < 1e-4 := by
    unfold dist
    rw [Real.sqrt_lt' (by norm_num)]
    have : sqDist (along p1 p2 t) p1 = t ^ 2 * sqDist p1 p2 := by
      unfold sqDist along; ring
    rw [this]
    have hsq : t ^ 2 ≤ 1 := by nlinarith
    have := sqDist_nonneg p1 p2
    unfold eps at h
    nlinarith
  linarith

example : ∃ p1 p2 : XYPoint, sqDist p1 p2 < eps ∧ p1 ≠ p2 :=
  ⟨⟨0, 0⟩, ⟨1e-5, 0⟩, by unfold eps sqDist; norm_num, by
    intro h; have := congrArg XYPoint.x h; norm_num at this⟩

/-- **C04.** Distance to a line: NaN exactly for points on different levels or a degenerate line,
otherwise the least distance to the points of the line. -/
theorem C04_line_distance (A B C : LocationPoint) :
    (getDistToLine A B C = none ↔
      A.level ≠ B.level ∨ A.level ≠ C.level ∨ dist ⟨A.x, A.y⟩ ⟨B.x, B.y⟩ < eps) ∧
    ∀ d, getDistToLine A B C = some d →
      IsLeast {r | ∃ q, OnLine ⟨A.x, A.y⟩ ⟨B.x, B.y⟩ q ∧ r = dist ⟨C.x, C.y⟩ q} d := by
  have hd : getDist A.x A.y B.x B.y = dist ⟨A.x, A.y⟩ ⟨B.x, B.y⟩ := getDist_eq_dist ⟨A.x, A.y⟩ ⟨B.x, B.y⟩
  rw [getDistToLine_eq]
  unfold getDistLP
  rw [hd]
  by_cases hl : A.level ≠ B.level ∨ A.level ≠ C.level
  · simp only [hl, if_true, true_iff]
    constructor
    · tauto
    · intro d h; cases h
  · rw [if_neg hl]
    push Not at hl
    obtain ⟨hAB, hAC⟩ := hl
    rw [if_pos hAB]
    simp only
    by_cases hge : dist ⟨A.x, A.y⟩ ⟨B.x, B.y⟩ ≥ eps
    · rw [if_pos hge]
      constructor
      · simp only [reduceCtorEq, false_iff]; push Not; exact ⟨hAB, hAC, hge⟩
      · intro d h
        obtain rfl : _ = d := Option.some.inj h
        have hpos := lt_of_lt_of_le eps_pos hge
        set D := dist ⟨A.x, A.y⟩ ⟨B.x, B.y⟩ with hD
        have hDsq : D ^ 2 = (A.x - B.x) ^ 2 + (A.y - B.y) ^ 2 := dist_sq _ _
        set N := (B.x - A.x) * (C.y - A.y) - (C.x - A.x) * (B.y - A.y) with hN
        have hNd : ∀ q : XYPoint, OnLine ⟨A.x, A.y⟩ ⟨B.x, B.y⟩ q →
            (|N| / D) ^ 2 ≤ sqDist ⟨C.x, C.y⟩ q := by
          rintro q ⟨t, rfl⟩
          rw [div_pow, sq_abs, div_le_iff₀ (by positivity), hDsq]
          simp only [sqDist, along, hN]
          nlinarith [sq_nonneg ((C.x - ((1 - t) * A.x + t * B.x)) * (B.x - A.x) +
            (C.y - ((1 - t) * A.y + t * B.y)) * (B.y - A.y))]
        constructor
        · set E := (C.x - A.x) * (B.x - A.x) + (C.y - A.y) * (B.y - A.y) with hE
          have htE : E / D ^ 2 * D ^ 2 = E := by field_simp
          refine ⟨_, ⟨E / D ^ 2, rfl⟩, ?_⟩
          have hval : sqDist ⟨C.x, C.y⟩ (along ⟨A.x, A.y⟩ ⟨B.x, B.y⟩ (E / D ^ 2)) * D ^ 2 = N ^ 2 := by
            set t := E / D ^ 2 with ht
            have h1 : sqDist ⟨C.x, C.y⟩ (along ⟨A.x, A.y⟩ ⟨B.x, B.y⟩ t) =
                (C.x - A.x) ^ 2 + (C.y - A.y) ^ 2 - 2 * t * E + t ^ 2 * D ^ 2 := by
              rw [hDsq]; simp only [sqDist, along, hE]; ring
            have h2 : (((C.x - A.x) ^ 2 + (C.y - A.y) ^ 2 - 2 * t * E + t ^ 2 * D ^ 2)) * D ^ 2 =
                ((C.x - A.x) ^ 2 + (C.y - A.y) ^ 2) * D ^ 2 - 2 * (t * D ^ 2) * E + (t * D ^ 2) ^ 2 := by ring
            rw [h1, h2, htE, hDsq]
            simp only [hN, hE]; ring
          unfold dist
          rw [← Real.sqrt_sq (div_nonneg (abs_nonneg N) hpos.le)]
          congr 1
          rw [div_pow, sq_abs, div_eq_iff (by positivity), hval]
        · rintro r ⟨q, hq, rfl⟩
          exact Real.le_sqrt_of_sq_le (hNd q hq)
    · rw [if_neg hge]
      push Not at hge
      constructor
      · simp only [true_iff]; tauto
      · intro d h; cases h

/-- **C05.** The projection on a line that is not degenerate: the answer is the point at parameter
`k`, the connecting vector is orthogonal to the line, and no point of the line is closer. -/
theorem C05_projection (a b o : XYPoint) (h : eps < sqDist a b) :
    let r := getProjection a.x a.y b.x b.y o.x o.y
    r.2 = along a b r.1 ∧
    (o.x - r.2.x) * (b.x - a.x) + (o.y - r.2.y) * (b.y - a.y) = 0 ∧
    ∀ q, OnLine a b q → dist o r.2 ≤ dist o q := by
  have hab : (b.x - a.x) * (b.x - a.x) + (b.y - a.y) * (b.y - a.y) > eps := by
    unfold sqDist at h; linarith
  have hpos := lt_trans eps_pos hab
  set L := (b.x - a.x) * (b.x - a.x) + (b.y - a.y) * (b.y - a.y) with hL
  set D := (o.x - a.x) * (b.x - a.x) + (o.y - a.y) * (b.y - a.y) with hD
  have hr : getProjection a.x a.y b.x b.y o.x o.y = (D / L, along a b (D / L)) := by
    rw [getProjection_eq]
    simp only [← hL, ← hD, hab, if_true, along]
    congr 2 <;> ring
  have hDL : D / L * L = D := by field_simp
  have orth : (o.x - (along a b (D / L)).x) * (b.x - a.x) +
      (o.y - (along a b (D / L)).y) * (b.y - a.y) = 0 := by
    have : (o.x - (along a b (D / L)).x) * (b.x - a.x) +
      (o.y - (along a b (D / L)).y) * (b.y - a.y) = D - D / L * L := by
      simp only [along, hD, hL]; ring
    rw [this, hDL, sub_self]
  simp only [hr]
  refine ⟨trivial, orth, ?_⟩
  rintro q ⟨t, rfl⟩
  apply Real.sqrt_le_sqrt
  have : sqDist o (along a b t) = sqDist o (along a b (D / L)) + (t - D / L) ^ 2 * L
      - 2 * (t - D / L) * ((o.x - (along a b (D / L)).x) * (b.x - a.x) +
      (o.y - (along a b (D / L)).y) * (b.y - a.y)) := by
    simp only [sqDist, along, hL]; ring
  rw [this, orth]
  nlinarith [mul_nonneg (sq_nonneg (t - D / L)) hpos.le]

example : ∃ a b : XYPoint, eps < sqDist a b := ⟨⟨0, 0⟩, ⟨3, 4⟩, by unfold eps sqDist; norm_num⟩

/-- **C05.** A degenerate segment answers parameter 0 and its first end. -/
theorem C05_projection_degenerate (a b o : XYPoint) (h : sqDist a b ≤ eps) :
    getProjection a.x a.y b.x b.y o.x o.y = (0, a) := by
  have hab : ¬ ((b.x - a.x) * (b.x - a.x) + (b.y - a.y) * (b.y - a.y) > eps) := by
    unfold sqDist at h; linarith
  rw [getProjection_eq]
  simp [hab]

/-- **C06.** Soundness: the answered point lies on both segments and `k` locates it on the first. -/
theorem C06_intersection_sound (p q a b : XYPoint) (k : ℝ) (o : XYPoint)
    (h : getIntersection p.x p.y q.x q.y a.x a.y b.x b.y = some (k, o)) :
    0 ≤ k ∧ k ≤ 1 ∧ o = along p q k ∧ OnSegment a b o := by
  rw [getIntersection_eq] at h
  simp only at h
  split_ifs at h with h1 h2
  push Not at h2
  obtain ⟨hk0, hk1, hl0, hl1⟩ := h2
  obtain ⟨rfl, rfl⟩ := Prod.mk.inj (Option.some.inj h)
  have hdet : det2 (q.x - p.x) (b.x - a.x) (q.y - p.y) (b.y - a.y) ≠ 0 := by
    intro h0; rw [h0, abs_zero] at h1; exact h1 eps_pos
  refine ⟨hk0, hk1, ?_, _, hl0, hl1, ?_⟩
  · unfold along; congr 1 <;> ring
  · set D := det2 (q.x - p.x) (b.x - a.x) (q.y - p.y) (b.y - a.y) with hD
    set M := det2 (a.x - p.x) (b.x - a.x) (a.y - p.y) (b.y - a.y) with hM
    set N := det2 (q.x - p.x) (a.x - p.x) (q.y - p.y) (a.y - p.y) with hN
    have hx : (p.x + M / D * (q.x - p.x)) * D = ((1 - -N / D) * a.x + -N / D * b.x) * D := by
      field_simp
      simp only [hM, hN, hD, det2]; ring
    have hy : (p.y + M / D * (q.y - p.y)) * D = ((1 - -N / D) * a.y + -N / D * b.y) * D := by
      field_simp
      simp only [hM, hN, hD, det2]; ring
    unfold along
    rw [mul_right_cancel₀ hdet hx, mul_right_cancel₀ hdet hy]

/-- **C06.** Completeness: if segments that are not (nearly) parallel have a common point, it is
the answer. -/
theorem C06_intersection_complete (p q a b o : XYPoint) 
    (hdet : eps ≤ |(q.x - p.x) * (b.y - a.y) - (b.x - a.x) * (q.y - p.y)|)
    (h1 : OnSegment p q o) (h2 : OnSegment a b o) :
    ∃ k, getIntersection p.x p.y q.x q.y a.x a.y b.x b.y = some (k, o) := by
  obtain ⟨s, hs0, hs1, hs⟩ := h1
  obtain ⟨t, ht0, ht1, ht⟩ := h2
  have hx := congrArg XYPoint.x (hs.symm.trans ht)
  have hy := congrArg XYPoint.y (hs.symm.trans ht)
  simp only [along] at hx hy
  have hdet0 : det2 (q.x - p.x) (b.x - a.x) (q.y - p.y) (b.y - a.y) ≠ 0 := by
    intro h0; unfold det2 at h0; rw [h0, abs_zero] at hdet; exact absurd hdet (not_le.mpr eps_pos)
  have hk : det2 (a.x - p.x) (b.x - a.x) (a.y - p.y) (b.y - a.y) /
      det2 (q.x - p.x) (b.x - a.x) (q.y - p.y) (b.y - a.y) = s := by
    rw [div_eq_iff hdet0]; unfold det2
    linear_combination (-(b.y - a.y)) * hx + (b.x - a.x) * hy
  have hl : -det2 (q.x - p.x) (a.x - p.x) (q.y - p.y) (a.y - p.y) /
      det2 (q.x - p.x) (b.x - a.x) (q.y - p.y) (b.y - a.y) = t := by
    rw [div_eq_iff hdet0]; unfold det2
    linear_combination (-(q.y - p.y)) * hx + (q.x - p.x) * hy
  refine ⟨s, ?_⟩
  rw [getIntersection_eq]
  simp only [hk, hl]
  rw [if_neg (by unfold det2; exact not_lt.mpr hdet), if_neg (by push Not; exact ⟨hs0, hs1, ht0, ht1⟩)]
  rw [hs]; unfold along
  congr 3 <;> ring

example : ∃ p q a b o : XYPoint, eps ≤ |(q.x - p.x) * (b.y - a.y) - (b.x - a.x) * (q.y - p.y)| ∧
    OnSegment p q o ∧ OnSegment a b o := by
  refine ⟨⟨0, 0⟩, ⟨2, 2⟩, ⟨0, 2⟩, ⟨2, 0⟩, ⟨1, 1⟩, by unfold eps; norm_num, ⟨1/2, ?_⟩, ⟨1/2, ?_⟩⟩ <;>
    simp only [along] <;> norm_num

/-- **C06.** NaN for segments that are not (nearly) parallel means: no common point. -/
theorem C06_nan_means_disjoint (p q a b : XYPoint)
    (hdet : eps ≤ |(q.x - p.x) * (b.y - a.y) - (b.x - a.x) * (q.y - p.y)|)
    (h : getIntersection p.x p.y q.x q.y a.x a.y b.x b.y = none) :
    ¬ ∃ o, OnSegment p q o ∧ OnSegment a b o := by
  rintro ⟨o, h1, h2⟩
  obtain ⟨k, hk⟩ := C06_intersection_complete p q a b o hdet h1 h2
  rw [h] at hk; cases hk

/-- **C07.** Soundness: a positive answer means the open segments cross properly. -/
theorem C07_check_sound (a b c d : XYPoint)
    (h : checkIntersection a.x a.y b.x b.y c.x c.y d.x d.y) : CrossProperly a b c d := by
  obtain ⟨-, -, h1, h2⟩ := h
  set fc := getArea a.x a.y b.x b.y c.x c.y with hfc
  set fd := getArea a.x a.y b.x b.y d.x d.y with hfd
  set ga := getArea c.x c.y d.x d.y a.x a.y with hga
  set gb := getArea c.x c.y d.x d.y b.x b.y with hgb
  have rel : fc - fd = -(ga - gb) := by
    simp only [hfc, hfd, hga, hgb, getArea, det2]; ring
  have cross : (b.x - a.x) * (d.y - c.y) - (b.y - a.y) * (d.x - c.x) = -2 * (fc - fd) := by
    simp only [hfc, hfd, getArea, det2]; ring
  have hne : fc - fd ≠ 0 := by
    intro h0
    have : fc = fd := by linarith
    rw [this] at h1; nlinarith [mul_self_nonneg fd]
  have hne' : ga - gb ≠ 0 := by
    intro h0; apply hne; rw [rel, h0, neg_zero]
  have between : ∀ u v : ℝ, u * v < 0 → 0 < u / (u - v) ∧ u / (u - v) < 1 := by
    intro u v huv
    have hw : u - v ≠ 0 := by
      intro h0
      have : u = v := by linarith
      rw [this] at huv; nlinarith [mul_self_nonneg v]
    rcases lt_or_gt_of_ne (show u ≠ 0 by rintro rfl; simp at huv) with hu | hu
    · have hv : 0 < v := by by_contra hv; push Not at hv; nlinarith
      have : u - v < 0 := by linarith
      exact ⟨div_pos_of_neg_of_neg hu this, (div_lt_one_of_neg this).mpr (by linarith)⟩
    · have hv : v < 0 := by by_contra hv; push Not at hv; nlinarith
      have : 0 < u - v := by linarith
      exact ⟨div_pos hu this, (div_lt_one this).mpr (by linarith)⟩
  refine ⟨by rw [cross]; exact mul_ne_zero (by norm_num) hne, ga / (ga - gb), fc / (fc - fd),
    (between _ _ h2).1, (between _ _ h2).2, (between _ _ h1).1, (between _ _ h1).2, ?_⟩
  have hden : fc / (fc - fd) = -fc / (ga - gb) := by
    rw [rel, div_neg, neg_div]
  rw [hden]
  unfold along
  congr 1
  · field_simp
    simp only [hfc, hga, hgb, getArea, det2]; ring
  · field_simp
    simp only [hfc, hga, hgb, getArea, det2]; ring

/-- **C07.** Completeness for segments that are not axis-parallel: every proper crossing is found.
(The user expects this for all segments; see `C07_axis_parallel_never`.) -/
theorem C07_check_complete (a b c d : XYPoint) (h : CrossProperly a b c d)
    (hab : a.x ≠ b.x ∧ a.y ≠ b.y) (hcd : c.x ≠ d.x ∧ c.y ≠ d.y) :
    checkIntersection a.x a.y b.x b.y c.x c.y d.x d.y := by
  obtain ⟨hne, s, t, hs0, hs1, ht0, ht1, he⟩ := h
  have hx : (1 - s) * a.x + s * b.x = (1 - t) * c.x + t * d.x := congrArg XYPoint.x he
  have hy : (1 - s) * a.y + s * b.y = (1 - t) * c.y + t * d.y := congrArg XYPoint.y he
  have box : ∀ u v w z : ℝ, u ≠ v → w ≠ z → (1 - s) * u + s * v = (1 - t) * w + t * z →
      boundBoxCheck u v w z := by
    intro u v w z huv hwz heq
    unfold boundBoxCheck
    have lo : ∀ r x y : ℝ, 0 < r → r < 1 → x ≠ y →
        (if x > y then y else x) < (1 - r) * x + r * y ∧ (1 - r) * x + r * y < (if x > y then x else y) := by
      intro r x y hr0 hr1 hxy
      split_ifs with hc
      · constructor <;> nlinarith
      · have : x < y := lt_of_le_of_ne (not_lt.mp hc) hxy
        constructor <;> nlinarith
    have h1 := lo s u v hs0 hs1 huv
    have h2 := lo t w z ht0 ht1 hwz
    rw [max_lt_iff, lt_min_iff, lt_min_iff]
    refine ⟨⟨?_, ?_⟩, ?_, ?_⟩ <;> linarith [h1.1, h1.2, h2.1, h2.2]
  refine ⟨box _ _ _ _ hab.1 hcd.1 hx, box _ _ _ _ hab.2 hcd.2 hy, ?_, ?_⟩
  · have hC : getArea a.x a.y b.x b.y c.x c.y =
        -t / 2 * ((b.x - a.x) * (d.y - c.y) - (b.y - a.y) * (d.x - c.x)) := by
      unfold getArea det2
      linear_combination ((b.y - a.y) / 2) * hx - ((b.x - a.x) / 2) * hy
    have hD : getArea a.x a.y b.x b.y d.x d.y =
        (1 - t) / 2 * ((b.x - a.x) * (d.y - c.y) - (b.y - a.y) * (d.x - c.x)) := by
      unfold getArea det2
      linear_combination ((b.y - a.y) / 2) * hx - ((b.x - a.x) / 2) * hy
    rw [hC, hD]
    have := mul_pos (mul_pos ht0 (sub_pos.mpr ht1)) (sq_pos_of_ne_zero hne)
    nlinarith
  · have hA : getArea c.x c.y d.x d.y a.x a.y =
        s / 2 * ((b.x - a.x) * (d.y - c.y) - (b.y - a.y) * (d.x - c.x)) := by
      unfold getArea det2
      linear_combination (-(d.y - c.y) / 2) * hx + ((d.x - c.x) / 2) * hy
    have hB : getArea c.x c.y d.x d.y b.x b.y =
        -(1 - s) / 2 * ((b.x - a.x) * (d.y - c.y) - (b.y - a.y) * (d.x - c.x)) := by
      unfold getArea det2
      linear_combination (-(d.y - c.y) / 2) * hx + ((d.x - c.x) / 2) * hy
    rw [hA, hB]
    have := mul_pos (mul_pos hs0 (sub_pos.mpr hs1)) (sq_pos_of_ne_zero hne)
    nlinarith

/-- **C07**, what fails: with an axis-parallel segment the answer is always negative. -/
theorem C07_axis_parallel_never (a b c d : XYPoint)
    (h : a.x = b.x ∨ a.y = b.y ∨ c.x = d.x ∨ c.y = d.y) :
    ¬ checkIntersection a.x a.y b.x b.y c.x c.y d.x d.y := by
  rintro ⟨h1, h2, -, -⟩
  unfold boundBoxCheck at h1 h2
  rw [max_lt_iff, lt_min_iff, lt_min_iff] at h1 h2
  rcases h with h | h | h | h
  · rw [h] at h1; simp at h1
  · rw [h] at h2; simp at h2
  · rw [h] at h1; simp at h1
  · rw [h] at h2; simp at h2

/-- **C07.** The answer, exactly: the segments cross properly and neither is axis-parallel. -/
theorem C07_exact (a b c d : XYPoint) :
    checkIntersection a.x a.y b.x b.y c.x c.y d.x d.y ↔
      CrossProperly a b c d ∧ a.x ≠ b.x ∧ a.y ≠ b.y ∧ c.x ≠ d.x ∧ c.y ≠ d.y := by
  constructor
  · intro h
    refine ⟨C07_check_sound a b c d h, ?_, ?_, ?_, ?_⟩ <;> intro he <;>
      exact C07_axis_parallel_never a b c d (by simp [he]) h
  · rintro ⟨h, h1, h2, h3, h4⟩
    exact C07_check_complete a b c d h ⟨h1, h2⟩ ⟨h3, h4⟩

/-- **C07**, witness: a vertical and a horizontal segment that cross properly in their middle are
reported as not crossing, so completeness fails. -/
theorem C07_complete_fails : ∃ a b c d : XYPoint, CrossProperly a b c d ∧
    ¬ checkIntersection a.x a.y b.x b.y c.x c.y d.x d.y := by
  refine ⟨⟨0, -1⟩, ⟨0, 1⟩, ⟨-1, 0⟩, ⟨1, 0⟩, ⟨by norm_num, 1/2, 1/2, by norm_num, by norm_num,
    by norm_num, by norm_num, by unfold along; norm_num⟩, C07_axis_parallel_never _ _ _ _ (Or.inl rfl)⟩

example : ∃ a b c d : XYPoint, CrossProperly a b c d ∧ (a.x ≠ b.x ∧ a.y ≠ b.y) ∧
    (c.x ≠ d.x ∧ c.y ≠ d.y) := by
  refine ⟨⟨0, 0⟩, ⟨2, 2⟩, ⟨0, 2⟩, ⟨2, 0⟩, ⟨by norm_num, 1/2, 1/2, by norm_num, by norm_num,
    by norm_num, by norm_num, by unfold along; norm_num⟩, by norm_num, by norm_num⟩

/-- **C09.** Every point of the segment is accepted by `PointOnLine`. -/
theorem C09_pointOnLine_complete (p a b : XYPoint) (h : OnSegment a b p) :
    pointOnLine p.x p.y a.x a.y b.x b.y := by
  obtain ⟨t, h0, h1, rfl⟩ := h
  have e := eps_pos
  unfold pointOnLine along
  simp only
  constructor
  · have : (a.x - ((1 - t) * a.x + t * b.x)) * (b.y - ((1 - t) * a.y + t * b.y)) -
      (a.y - ((1 - t) * a.y + t * b.y)) * (b.x - ((1 - t) * a.x + t * b.x)) = 0 := by ring
    rw [this, abs_zero]; exact e
  · have : (a.x - ((1 - t) * a.x + t * b.x)) * (b.x - ((1 - t) * a.x + t * b.x)) +
      (a.y - ((1 - t) * a.y + t * b.y)) * (b.y - ((1 - t) * a.y + t * b.y)) =
      -(t * (1 - t) * ((a.x - b.x) ^ 2 + (a.y - b.y) ^ 2)) := by ring
    rw [this]
    have : 0 ≤ t * (1 - t) * ((a.x - b.x) ^ 2 + (a.y - b.y) ^ 2) :=
      mul_nonneg (mul_nonneg h0 (sub_nonneg.mpr h1)) (by positivity)
    linarith

/-- **C09.** Every accepted point is within `sqrt (2e-8)` (0.15 mm for metres) of the segment. -/
theorem C09_pointOnLine_sound (p a b : XYPoint) (h : pointOnLine p.x p.y a.x a.y b.x b.y) :
    ∃ q, OnSegment a b q ∧ dist p q ^ 2 < 2 * eps := by
  have e := eps_pos
  unfold pointOnLine at h
  simp only at h
  obtain ⟨hc, hd⟩ := h
  obtain ⟨hc1, hc2⟩ := abs_lt.mp hc
  have lag : sqDist p a * sqDist p b =
      ((a.x - p.x) * (b.y - p.y) - (a.y - p.y) * (b.x - p.x)) ^ 2 +
      ((a.x - p.x) * (b.x - p.x) + (a.y - p.y) * (b.y - p.y)) ^ 2 := by
    unfold sqDist; ring
  have hLe : sqDist a b = sqDist p a + sqDist p b -
      2 * ((a.x - p.x) * (b.x - p.x) + (a.y - p.y) * (b.y - p.y)) := by
    unfold sqDist; ring
  have nA := sqDist_nonneg p a
  have nB := sqDist_nonneg p b
  have hexp : ∀ t : ℝ, sqDist p (along a b t) = sqDist p a
      - 2 * t * (sqDist p a - ((a.x - p.x) * (b.x - p.x) + (a.y - p.y) * (b.y - p.y)))
      + t ^ 2 * sqDist a b := by
    intro t; simp only [sqDist, along]; ring
  set d := (a.x - p.x) * (b.x - p.x) + (a.y - p.y) * (b.y - p.y) with hdd
  set c := (a.x - p.x) * (b.y - p.y) - (a.y - p.y) * (b.x - p.x) with hcc
  by_cases hdot : 0 ≤ d
  · -- one of the ends is close
    rcases le_total (sqDist p a) (sqDist p b) with hle | hle
    · refine ⟨a, ⟨0, le_refl _, zero_le_one, by unfold along; simp⟩, ?_⟩
      rw [dist_sq]
      exact prod_small nA e lag hc1 hc2 hdot hd hle
    · refine ⟨b, ⟨1, zero_le_one, le_refl _, by unfold along; simp⟩, ?_⟩
      rw [dist_sq]
      exact prod_small nB e (by rw [mul_comm]; exact lag) hc1 hc2 hdot hd hle
  · push Not at hdot
    -- the foot of the perpendicular is inside the segment
    have hLpos : 0 < sqDist a b := by linarith
    set t := (sqDist p a - d) / sqDist a b with ht
    have htL : t * sqDist a b = sqDist p a - d := by rw [ht]; field_simp
    refine ⟨along a b t, ⟨t, ?_, ?_, rfl⟩, ?_⟩
    · rw [ht]; apply div_nonneg <;> linarith
    · rw [ht, div_le_one hLpos]; linarith
    · rw [dist_sq]
      have hval : sqDist p (along a b t) * sqDist a b = c ^ 2 := by
        have : (sqDist p a - 2 * t * (sqDist p a - d) + t ^ 2 * sqDist a b) * sqDist a b =
            sqDist p a * sqDist a b - 2 * (t * sqDist a b) * (sqDist p a - d) + (t * sqDist a b) ^ 2 := by
          ring
        rw [hexp, this, htL, hLe]
        linear_combination lag
      exact foot_small (sqDist_nonneg _ _) nA nB lag hLe hdot hval e hc1 hc2

example : ∃ p a b : XYPoint, OnSegment a b p ∧ a ≠ b := by
  refine ⟨⟨1, 1⟩, ⟨0, 0⟩, ⟨2, 2⟩, ⟨1/2, by norm_num, by norm_num, by unfold along; norm_num⟩, ?_⟩
  intro h; have := congrArg XYPoint.x h; norm_num at this

/-- The two tests of `XRayIntersectsLine` for ends that are not exactly at the height of the ray. -/
theorem ray_core (x y x1 y1 x2 y2 : ℝ) (hy1 : y ≠ y1) :
    (if y1 < y ∧ y < y2 then det3 x2 y2 1 x y 1 x1 y1 1 + eps > 0
      else if y2 < y ∧ y < y1 then det3 x1 y1 1 x y 1 x2 y2 1 + eps > 0
      else False) ↔
      ∃ t, 0 < t ∧ t < 1 ∧ (1 - t) * y1 + t * y2 = y ∧
        x - eps / |y2 - y1| < (1 - t) * x1 + t * x2 := by
  split_ifs with ha hb
  · obtain ⟨ha1, ha2⟩ := ha
    have hpos : 0 < y2 - y1 := by linarith
    rw [abs_of_pos hpos]
    have key : ∀ t : ℝ, (1 - t) * y1 + t * y2 = y →
        ((x - eps / (y2 - y1) < (1 - t) * x1 + t * x2) ↔ det3 x2 y2 1 x y 1 x1 y1 1 + eps > 0) := by
      intro t ht
      have : det3 x2 y2 1 x y 1 x1 y1 1 = (y2 - y1) * ((1 - t) * x1 + t * x2 - x) := by
        rw [← ht]; unfold det3; ring
      rw [this, sub_lt_iff_lt_add, ← sub_lt_iff_lt_add', lt_div_iff₀ hpos]
      constructor <;> intro h <;> nlinarith
    constructor
    · intro h
      have ht : (1 - (y - y1) / (y2 - y1)) * y1 + (y - y1) / (y2 - y1) * y2 = y := by
        field_simp; ring
      refine ⟨(y - y1) / (y2 - y1), div_pos (by linarith) hpos, ?_, ht, (key _ ht).mpr h⟩
      rw [div_lt_one hpos]; linarith
    · rintro ⟨t, -, -, ht, hlt⟩
      exact (key t ht).mp hlt
  · obtain ⟨hb1, hb2⟩ := hb
    have hneg : y2 - y1 < 0 := by linarith
    rw [abs_of_neg hneg]
    have hpos : 0 < -(y2 - y1) := by linarith
    have key : ∀ t : ℝ, (1 - t) * y1 + t * y2 = y →
        ((x - eps / -(y2 - y1) < (1 - t) * x1 + t * x2) ↔ det3 x1 y1 1 x y 1 x2 y2 1 + eps > 0) := by
      intro t ht
      have : det3 x1 y1 1 x y 1 x2 y2 1 = -(y2 - y1) * ((1 - t) * x1 + t * x2 - x) := by
        rw [← ht]; unfold det3; ring
      rw [this, sub_lt_iff_lt_add, ← sub_lt_iff_lt_add', lt_div_iff₀ hpos]
      constructor <;> intro h <;> nlinarith
    constructor
    · intro h
      have ht : (1 - (y - y1) / (y2 - y1)) * y1 + (y - y1) / (y2 - y1) * y2 = y := by
        have := hneg.ne
        field_simp; ring
      refine ⟨(y - y1) / (y2 - y1), div_pos_of_neg_of_neg (by linarith) hneg, ?_, ht, (key _ ht).mpr h⟩
      rw [div_lt_one_of_neg hneg]; linarith
    · rintro ⟨t, -, -, ht, hlt⟩
      exact (key t ht).mp hlt
  · simp only [false_iff]
    rintro ⟨t, ht0, ht1, ht, -⟩
    rcases lt_trichotomy y1 y2 with h | h | h
    · exact ha ⟨by nlinarith, by nlinarith⟩
    · apply hy1; rw [← ht, h]; ring
    · exact hb ⟨by nlinarith, by nlinarith⟩

/-- **C09.** `XRayIntersectsLine` for end points not at the height of the ray: it answers whether
the horizontal ray to the right of `(x, y)` meets the open segment, with a tolerance of
`eps / |y2 - y1|` to the left. -/
theorem C09_ray (x y x1 y1 x2 y2 : ℝ) (h1 : 1e-8 ≤ |y - y1|) (h2 : 1e-8 ≤ |y - y2|) :
    xRayIntersectsLine x y x1 y1 x2 y2 ↔
      ∃ t, 0 < t ∧ t < 1 ∧ (1 - t) * y1 + t * y2 = y ∧
        x - 1e-8 / |y2 - y1| < (1 - t) * x1 + t * x2 := by
  change eps ≤ _ at h1
  change eps ≤ _ at h2
  unfold xRayIntersectsLine liftEnd
  simp only [not_lt.mpr h1, not_lt.mpr h2, if_false]
  apply ray_core
  rintro rfl
  rw [sub_self, abs_zero] at h1
  exact absurd h1 (not_le.mpr eps_pos)

theorem sqrt_eps : Real.sqrt eps = 1e-4 := by
  rw [Real.sqrt_eq_iff_mul_self_eq (by unfold eps; norm_num) (by norm_num)]
  unfold eps; norm_num

theorem liftEnd_above {y yi : ℝ} (h : |y - yi| < 1e-8) : liftEnd y yi = yi + 1e-4 ∧ y < yi + 1e-4 := by
  constructor
  · unfold liftEnd
    rw [if_pos (by unfold eps; exact h), sqrt_eps]
  · rw [abs_lt] at h
    have : (1e-8 : ℝ) < 1e-4 := by norm_num
    linarith [h.2]

/-- **C09.** An end at the height of the ray counts as lying above it, so that a ray through a common end of
two segments counts segments below only: never if the other end is above or at the height too, otherwise as for
the segment with that end raised by 0.1 mm. -/
theorem C09_ray_end (x y x1 y1 x2 y2 : ℝ) (h1 : |y - y1| < 1e-8) :
    (y ≤ y2 ∨ |y - y2| < 1e-8 →
      ¬ xRayIntersectsLine x y x1 y1 x2 y2 ∧ ¬ xRayIntersectsLine x y x2 y2 x1 y1) ∧
    (y2 < y → 1e-8 ≤ |y - y2| →
      (xRayIntersectsLine x y x1 y1 x2 y2 ↔
        ∃ t, 0 < t ∧ t < 1 ∧ (1 - t) * (y1 + 1e-4) + t * y2 = y ∧
          x - 1e-8 / |y2 - (y1 + 1e-4)| < (1 - t) * x1 + t * x2) ∧
      (xRayIntersectsLine x y x2 y2 x1 y1 ↔
        ∃ t, 0 < t ∧ t < 1 ∧ (1 - t) * y2 + t * (y1 + 1e-4) = y ∧
          x - 1e-8 / |(y1 + 1e-4) - y2| < (1 - t) * x2 + t * x1)) := by
  obtain ⟨e1, l1⟩ := liftEnd_above h1
  constructor
  · intro h2
    have l2 : y ≤ liftEnd y y2 := by
      rcases h2 with h2 | h2
      · unfold liftEnd
        split_ifs
        · rw [sqrt_eps]; norm_num at h2 ⊢; linarith
        · exact h2
      · obtain ⟨e2, l2⟩ := liftEnd_above h2
        rw [e2]; exact l2.le
    unfold xRayIntersectsLine
    simp only [e1]
    constructor <;>
      · rw [if_neg (fun h => by linarith [h.1, h.2]), if_neg (fun h => by linarith [h.1, h.2])]
        exact id
  · intro h2 h3
    have e2 : liftEnd y y2 = y2 := by
      unfold liftEnd
      rw [if_neg (not_lt.mpr (by unfold eps; exact h3))]
    unfold xRayIntersectsLine
    simp only [e1, e2]
    exact ⟨ray_core x y x1 _ x2 _ l1.ne, ray_core x y x2 _ x1 _ h2.ne'⟩

/-- A ray through the lower end of a segment misses it, a ray through the upper end meets it. -/
example : ¬ xRayIntersectsLine 0 0 5 0 5 1 ∧ xRayIntersectsLine 0 0 5 0 5 (-1) := by
  refine ⟨((C09_ray_end 0 0 5 0 5 1 (by norm_num)).1 (.inl (by norm_num))).1, ?_⟩
  have h1 : (1e-8 : ℝ) ≤ |0 - -1| := by norm_num
  rw [((C09_ray_end 0 0 5 0 5 (-1) (by norm_num)).2 (by norm_num) h1).1]
  refine ⟨1e-4 / (1 + 1e-4), by positivity, by norm_num, by norm_num, by norm_num⟩

example : ∃ x y x1 y1 x2 y2 : ℝ, eps ≤ |y - y1| ∧ eps ≤ |y - y2| ∧
    ∃ t, 0 < t ∧ t < 1 ∧ (1 - t) * y1 + t * y2 = y ∧ x - eps / |y2 - y1| < (1 - t) * x1 + t * x2 := by
  refine ⟨0, 0, 5, -1, 5, 1, by unfold eps; norm_num, by unfold eps; norm_num, 1/2, by norm_num,
    by norm_num, by norm_num, ?_⟩
  unfold eps; norm_num

/-- **C07.** The area test behind it: `GetArea` has an answer exactly for three points of one level; it is half the cross product
of the sides, so positive, zero or negative as the third point lies to the left of, on or to the right of the line through the
first two, and turning the triangle round changes the sign only. -/
theorem C07_area (A B C : LocationPoint) :
    ((getAreaLP A B C).isSome ↔ A.level = B.level ∧ B.level = C.level) ∧
    ∀ s, getAreaLP A B C = some s →
      2 * s = (B.x - A.x) * (C.y - A.y) - (B.y - A.y) * (C.x - A.x) ∧ getAreaLP A C B = some (-s) ∧ getAreaLP B C A = some s := by
  unfold getAreaLP
  constructor
  · split_ifs with h
    · simp only [Option.isSome_none, Bool.false_eq_true, false_iff]
      rintro ⟨h1, h2⟩
      rcases h with h | h
      · exact h h1
      · exact h (h1.trans h2)
    · push Not at h
      simp only [Option.isSome_some, true_iff]
      exact ⟨h.1, h.1.symm.trans h.2⟩
  · intro s hs
    split_ifs at hs with h
    push Not at h
    obtain ⟨h1, h2⟩ := h
    cases hs
    refine ⟨by simp only [getArea, det2]; ring, ?_, ?_⟩
    · rw [if_neg (by push Not; exact ⟨h2, h1⟩)]
      congr 1
      simp only [getArea, det2]; ring
    · rw [if_neg (by push Not; exact ⟨h1.symm.trans h2, h1.symm⟩)]
      congr 1
      simp only [getArea, det2]; ring

example : getAreaLP ⟨"a", 0, 0⟩ ⟨"a", 4, 0⟩ ⟨"a", 0, 3⟩ = some 6 := by
  simp only [getAreaLP, getArea, det2]
  norm_num

end Verif.Geometry
