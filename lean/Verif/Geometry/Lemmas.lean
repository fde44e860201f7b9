import Verif.Geometry.Model
import Verif.Geometry.Spec
import Mathlib.Tactic.Linarith
import Mathlib.Tactic.FieldSimp
import Mathlib.Tactic.Positivity

/-! # Helper lemmas about planar geometry -/

namespace Verif.Geometry

open Verif.Geo (XYPoint)

theorem eps_pos : 0 < eps := by unfold eps; norm_num

/-! ### No division by zero -/

theorem segmentPointDist_eq (p1 p2 p : XYPoint) : segmentPointDist p1 p2 p =
    (let v1x := p.x - p1.x
     let v1y := p.y - p1.y
     let v2x := p2.x - p1.x
     let v2y := p2.y - p1.y
     let len := v2x * v2x + v2y * v2y
     if len < eps then getDist p1.x p1.y p.x p.y
     else
       let t := (v1x * v2x + v1y * v2y) / len
       let t := min (max t 0) 1
       let sx := p1.x + t * (p2.x - p1.x)
       let sy := p1.y + t * (p2.y - p1.y)
       Real.sqrt ((sx - p.x) * (sx - p.x) + (sy - p.y) * (sy - p.y))) := by
  unfold segmentPointDist
  dsimp only
  split_ifs with h
  · rfl
  · rw [divide_pos (lt_of_lt_of_le eps_pos (not_lt.mp h))]

theorem getDistToLine_eq (A B C : LocationPoint) : getDistToLine A B C =
    if A.level ≠ B.level ∨ A.level ≠ C.level then none
    else
      match getDistLP A B with
      | none => none
      | some d =>
        if d ≥ eps then some (|(B.x - A.x) * (C.y - A.y) - (C.x - A.x) * (B.y - A.y)| / d) else none := by
  unfold getDistToLine
  split_ifs with h
  · rfl
  · cases getDistLP A B with
    | none => rfl
    | some d =>
      dsimp only
      split_ifs with hd
      · rw [divide_pos (lt_of_lt_of_le eps_pos hd)]
      · rfl

theorem getProjection_eq (ax ay bx by' ox oy : ℝ) : getProjection ax ay bx by' ox oy =
    (let ab := (bx - ax) * (bx - ax) + (by' - ay) * (by' - ay)
     let ao := (ox - ax) * (bx - ax) + (oy - ay) * (by' - ay)
     let k := if ab > eps then ao / ab else 0
     (k, ⟨ax + k * (bx - ax), ay + k * (by' - ay)⟩)) := by
  unfold getProjection
  dsimp only
  split_ifs with h
  · rw [divide_pos (lt_trans eps_pos h)]
  · rfl

theorem getIntersection_eq (px py qx qy ax ay bx by' : ℝ) : getIntersection px py qx qy ax ay bx by' =
    (let pqx := qx - px
     let pqy := qy - py
     let abx := bx - ax
     let aby := by' - ay
     let pax := ax - px
     let pay := ay - py
     let det := det2 pqx abx pqy aby
     if |det| < eps then none
     else
       let k := det2 pax abx pay aby / det
       let l := -det2 pqx pax pqy pay / det
       if k < 0 ∨ k > 1 ∨ l < 0 ∨ l > 1 then none
       else some (k, ⟨px + k * pqx, py + k * pqy⟩)) := by
  unfold getIntersection
  dsimp only
  by_cases h : |det2 (qx - px) (bx - ax) (qy - py) (by' - ay)| < eps
  · rw [if_pos h, if_pos h]
  · have h0 : det2 (qx - px) (bx - ax) (qy - py) (by' - ay) ≠ 0 := by
      intro h0; rw [h0, abs_zero] at h; exact h eps_pos
    rw [divide_eq h0, divide_eq h0]

theorem getDist_eq_dist (a b : XYPoint) : getDist a.x a.y b.x b.y = dist a b := by
  unfold getDist dist sqDist; congr 1; ring

theorem dist_comm (a b : XYPoint) : dist a b = dist b a := by
  unfold dist sqDist; congr 1; ring

theorem dist_nonneg (a b : XYPoint) : 0 ≤ dist a b := Real.sqrt_nonneg _

theorem sqDist_nonneg (a b : XYPoint) : 0 ≤ sqDist a b := by unfold sqDist; positivity

theorem dist_sq (a b : XYPoint) : dist a b ^ 2 = sqDist a b := Real.sq_sqrt (sqDist_nonneg a b)

theorem dist_triangle (a b c : XYPoint) : dist a c ≤ dist a b + dist b c := by
  have h1 := dist_nonneg a b
  have h2 := dist_nonneg b c
  have e1 := dist_sq a b
  have e2 := dist_sq b c
  unfold dist at *
  rw [Real.sqrt_le_left (by positivity)]
  have key : (a.x - b.x) * (b.x - c.x) + (a.y - b.y) * (b.y - c.y) ≤
      Real.sqrt (sqDist a b) * Real.sqrt (sqDist b c) := by
    rw [← Real.sqrt_mul (sqDist_nonneg a b)]
    apply Real.le_sqrt_of_sq_le
    unfold sqDist
    nlinarith [sq_nonneg ((a.x - b.x) * (b.y - c.y) - (a.y - b.y) * (b.x - c.x))]
  have hexp : sqDist a c = sqDist a b + sqDist b c +
      2 * ((a.x - b.x) * (b.x - c.x) + (a.y - b.y) * (b.y - c.y)) := by
    unfold sqDist; ring
  rw [hexp, add_sq, e1, e2]
  linarith

/-- Convexity: along a line the squared distance is a parabola, smallest at the clamped vertex. -/
theorem clamp_minimises (p1 p2 p : XYPoint) (t : ℝ) (ht0 : 0 ≤ t) (ht1 : t ≤ 1)
    (hlen : 0 < (p2.x - p1.x) * (p2.x - p1.x) + (p2.y - p1.y) * (p2.y - p1.y)) :
    sqDist p (along p1 p2 (min (max (((p.x - p1.x) * (p2.x - p1.x) + (p.y - p1.y) * (p2.y - p1.y)) /
      ((p2.x - p1.x) * (p2.x - p1.x) + (p2.y - p1.y) * (p2.y - p1.y))) 0) 1)) ≤
      sqDist p (along p1 p2 t) := by
  set L := (p2.x - p1.x) * (p2.x - p1.x) + (p2.y - p1.y) * (p2.y - p1.y) with hL
  set D := (p.x - p1.x) * (p2.x - p1.x) + (p.y - p1.y) * (p2.y - p1.y) with hD
  have expand : ∀ s : ℝ, sqDist p (along p1 p2 s) = sqDist p p1 + L * (s ^ 2) - 2 * D * s := by
    intro s; simp only [sqDist, along, hL, hD]; ring
  have hDt : D = L * (D / L) := by field_simp
  rw [expand, expand]
  set u := D / L with hu
  rcases le_total u 0 with h0 | h0
  · have : min (max u 0) 1 = 0 := by rw [max_eq_right h0]; norm_num
    rw [this, hDt]; nlinarith [mul_nonneg hlen.le ht0, mul_nonneg hlen.le (sq_nonneg t),
      mul_nonneg (mul_nonneg hlen.le ht0) (neg_nonneg.mpr h0)]
  · rcases le_total u 1 with h1 | h1
    · have : min (max u 0) 1 = u := by rw [max_eq_left h0, min_eq_left h1]
      rw [this, hDt]; nlinarith [mul_nonneg hlen.le (sq_nonneg (t - u))]
    · have : min (max u 0) 1 = 1 := by rw [max_eq_left h0, min_eq_right h1]
      rw [this, hDt]
      nlinarith [mul_nonneg hlen.le (sq_nonneg (t - 1)),
        mul_nonneg (mul_nonneg hlen.le (sub_nonneg.mpr ht1)) (sub_nonneg.mpr h1)]

theorem prod_small {P Q c d e : ℝ} (hP : 0 ≤ P) (he : 0 < e) (hPQ : P * Q = c ^ 2 + d ^ 2) (hc1 : -e < c) (hc2 : c < e)
    (hd1 : 0 ≤ d) (hd2 : d < e) (hle : P ≤ Q) : P < 2 * e := by
  have h1 : c ^ 2 < e ^ 2 := sq_lt_sq' hc1 hc2
  have h2 : d ^ 2 < e ^ 2 := pow_lt_pow_left₀ hd2 hd1 (by norm_num)
  by_contra hcon
  push Not at hcon
  have h3 : 2 * e * (2 * e) ≤ P * Q := mul_le_mul hcon (hcon.trans hle) (by positivity) hP
  have h4 : 2 * e * (2 * e) = 4 * e ^ 2 := by ring
  have h5 : 0 < e ^ 2 := by positivity
  linarith

theorem foot_small {S L P Q c d e : ℝ} (hS : 0 ≤ S) (hP : 0 ≤ P) (hQ : 0 ≤ Q) (hPQ : P * Q = c ^ 2 + d ^ 2)
    (hL : L = P + Q - 2 * d) (hd : d < 0) (hSL : S * L = c ^ 2) (he : 0 < e) (hc1 : -e < c) (hc2 : c < e) :
    S < 2 * e := by
  have hLpos : 0 < L := by linarith
  have h1 : c ^ 2 < e ^ 2 := sq_lt_sq' hc1 hc2
  have h2 : P * Q ≤ L * L := mul_le_mul (by linarith) (by linarith) hQ hLpos.le
  have h3 : S ≤ L := by
    refine le_of_mul_le_mul_right ?_ hLpos
    have := sq_nonneg d
    linarith
  have h4 : S * S ≤ S * L := mul_le_mul_of_nonneg_left h3 hS
  have h5 : S < e := by
    refine lt_of_pow_lt_pow_left₀ 2 he.le ?_
    have : S ^ 2 = S * S := by ring
    linarith
  linarith

end Verif.Geometry
