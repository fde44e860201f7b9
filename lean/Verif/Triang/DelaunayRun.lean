import Verif.Triang.DelaunayLemmas

/-!
# The starting triangle, the whole run, points on a grid
-/

namespace Verif.Triang

open Verif.Geometry (det3 eps)

/-! ## The bounding rectangle -/

theorem fold_max_all (f : Vertex → ℝ) (vs : List Vertex) (m : ℝ) (v : Vertex) (hv : v ∈ vs) :
    f v ≤ vs.foldl (fun m v => if f v > m then f v else m) m := by
  induction vs generalizing m with
  | nil => simp at hv
  | cons u vs ih =>
    rw [List.foldl_cons]
    rcases List.mem_cons.mp hv with rfl | hv
    · refine le_trans ?_ (fold_max f vs _)
      split_ifs with h
      · exact le_refl _
      · exact not_lt.mp h
    · exact ih _ hv

theorem fold_min_all (f : Vertex → ℝ) (vs : List Vertex) (m : ℝ) (v : Vertex) (hv : v ∈ vs) :
    vs.foldl (fun m v => if f v < m then f v else m) m ≤ f v := by
  induction vs generalizing m with
  | nil => simp at hv
  | cons u vs ih =>
    rw [List.foldl_cons]
    rcases List.mem_cons.mp hv with rfl | hv
    · refine le_trans (fold_min f vs _) ?_
      split_ifs with h
      · exact le_refl _
      · exact not_lt.mp h
    · exact ih _ hv

theorem fold_max_pick (f : Vertex → ℝ) (vs : List Vertex) (m : ℝ) :
    vs.foldl (fun m v => if f v > m then f v else m) m = m ∨
      ∃ v ∈ vs, vs.foldl (fun m v => if f v > m then f v else m) m = f v := by
  induction vs generalizing m with
  | nil => exact .inl rfl
  | cons u vs ih =>
    rw [List.foldl_cons]
    rcases ih (if f u > m then f u else m) with h | ⟨v, hv, h⟩
    · rw [h]
      split_ifs
      · exact .inr ⟨u, by simp, rfl⟩
      · exact .inl rfl
    · exact .inr ⟨v, by simp [hv], h⟩

theorem fold_min_pick (f : Vertex → ℝ) (vs : List Vertex) (m : ℝ) :
    vs.foldl (fun m v => if f v < m then f v else m) m = m ∨
      ∃ v ∈ vs, vs.foldl (fun m v => if f v < m then f v else m) m = f v := by
  induction vs generalizing m with
  | nil => exact .inl rfl
  | cons u vs ih =>
    rw [List.foldl_cons]
    rcases ih (if f u < m then f u else m) with h | ⟨v, hv, h⟩
    · rw [h]
      split_ifs
      · exact .inr ⟨u, by simp, rfl⟩
      · exact .inl rfl
    · exact .inr ⟨v, by simp [hv], h⟩

/-- The smallest rectangle with the vertices inside it and ten metres to spare on each side. -/
structure Box (vs : List Vertex) (x1 x2 y1 y2 : ℝ) : Prop where
  left : ∀ v ∈ vs, x1 + 10 ≤ v.x
  right : ∀ v ∈ vs, v.x ≤ x2 - 10
  down : ∀ v ∈ vs, y1 + 10 ≤ v.y
  up : ∀ v ∈ vs, v.y ≤ y2 - 10
  atLeft : ∃ v ∈ vs, v.x = x1 + 10
  atRight : ∃ v ∈ vs, v.x = x2 - 10
  atDown : ∃ v ∈ vs, v.y = y1 + 10
  atUp : ∃ v ∈ vs, v.y = y2 - 10

/-- The corners of the starting triangle. -/
def corner1 (x1 y1 y2 : ℝ) : Vertex := ⟨x1 + y1 - y2, y1, "super1"⟩
def corner2 (x2 y1 y2 : ℝ) : Vertex := ⟨x2 + y2 - y1, y1, "super2"⟩
noncomputable def corner3 (x1 x2 y2 : ℝ) : Vertex := ⟨(x1 + x2) / 2, y2 + (x2 - x1) / 2, "super3"⟩

theorem super_box (v0 : Vertex) (vs : List Vertex) : ∃ x1 x2 y1 y2, Box (v0 :: vs) x1 x2 y1 y2 ∧
    superVertices v0 (v0 :: vs) = [corner1 x1 y1 y2, corner2 x2 y1 y2, corner3 x1 x2 y2] := by
  refine ⟨_, _, _, _, ?_, rfl⟩
  have hx1 := fold_max_all Vertex.x (v0 :: vs) v0.x
  have hx2 := fold_min_all Vertex.x (v0 :: vs) v0.x
  have hy1 := fold_max_all Vertex.y (v0 :: vs) v0.y
  have hy2 := fold_min_all Vertex.y (v0 :: vs) v0.y
  refine ⟨fun v hv => by have := hx2 v hv; linarith, fun v hv => by have := hx1 v hv; linarith,
    fun v hv => by have := hy2 v hv; linarith, fun v hv => by have := hy1 v hv; linarith, ?_, ?_, ?_, ?_⟩
  · rcases fold_min_pick Vertex.x (v0 :: vs) v0.x with h | ⟨v, hv, h⟩
    · exact ⟨v0, by simp, by rw [h]; ring⟩
    · exact ⟨v, hv, by rw [h]; ring⟩
  · rcases fold_max_pick Vertex.x (v0 :: vs) v0.x with h | ⟨v, hv, h⟩
    · exact ⟨v0, by simp, by rw [h]; ring⟩
    · exact ⟨v, hv, by rw [h]; ring⟩
  · rcases fold_min_pick Vertex.y (v0 :: vs) v0.y with h | ⟨v, hv, h⟩
    · exact ⟨v0, by simp, by rw [h]; ring⟩
    · exact ⟨v, hv, by rw [h]; ring⟩
  · rcases fold_max_pick Vertex.y (v0 :: vs) v0.y with h | ⟨v, hv, h⟩
    · exact ⟨v0, by simp, by rw [h]; ring⟩
    · exact ⟨v, hv, by rw [h]; ring⟩

/-- The starting triangle. -/
noncomputable def start (x1 x2 y1 y2 : ℝ) : Triangle := ⟨corner1 x1 y1 y2, corner2 x2 y1 y2, corner3 x1 x2 y2⟩

/-- Its corners and the vertices. -/
noncomputable def points (vs : List Vertex) (x1 x2 y1 y2 : ℝ) : List Vertex := (start x1 x2 y1 y2).corners ++ vs

section
variable {vs : List Vertex} {x1 x2 y1 y2 : ℝ} (hb : Box vs x1 x2 y1 y2)
include hb

theorem Box.wide : x1 + 20 ≤ x2 ∧ y1 + 20 ≤ y2 := by
  obtain ⟨v, hv, h⟩ := hb.atLeft
  obtain ⟨w, hw, h'⟩ := hb.atDown
  have := hb.right v hv
  have := hb.up w hw
  constructor <;> linarith

theorem start_hull : Hull (points vs x1 x2 y1 y2) (start x1 x2 y1 y2) := by
  obtain ⟨hx, hy⟩ := hb.wide
  have side : ∀ (a b : Vertex) (α β γ : ℝ), aff α β γ a = 0 → aff α β γ b = 0 →
      (∀ q ∈ (start x1 x2 y1 y2).corners, 0 ≤ aff α β γ q) → (∀ q ∈ vs, 0 < aff α β γ q) →
      ∃ α β γ, aff α β γ (mkEdge a b).b = 0 ∧ aff α β γ (mkEdge a b).e = 0 ∧
        (∀ q ∈ points vs x1 x2 y1 y2, 0 ≤ aff α β γ q) ∧
        ∀ q ∈ points vs x1 x2 y1 y2, q ∉ (start x1 x2 y1 y2).corners → 0 < aff α β γ q := by
    intro a b α β γ ha hb' hc hv
    refine ⟨α, β, γ, ?_, ?_, ?_, ?_⟩
    · rcases mkEdge_mem a b _ (.inl rfl) with h | h <;> rw [h] <;> assumption
    · rcases mkEdge_mem a b _ (.inr rfl) with h | h <;> rw [h] <;> assumption
    · intro q hq
      rcases List.mem_append.mp hq with hq | hq
      · exact hc q hq
      · exact (hv q hq).le
    · intro q hq hn
      rcases List.mem_append.mp hq with hq | hq
      · exact absurd hq hn
      · exact hv q hq
  intro e he
  simp only [Triangle.sides, Triangle.ab, Triangle.bc, Triangle.ac, List.mem_cons, List.not_mem_nil, or_false] at he
  rcases he with rfl | rfl | rfl
  · refine side _ _ 0 1 (-y1) ?_ ?_ ?_ ?_
    · simp only [aff, start, corner1]; ring
    · simp only [aff, start, corner2]; ring
    · intro q hq
      simp only [Triangle.corners, start, List.mem_cons, List.not_mem_nil, or_false] at hq
      rcases hq with rfl | rfl | rfl <;> simp only [aff, corner1, corner2, corner3] <;> linarith
    · intro q hq
      have := hb.down q hq
      simp only [aff]; linarith
  · refine side _ _ (-1) (-1) (x2 + y2) ?_ ?_ ?_ ?_
    · simp only [aff, start, corner2]; ring
    · simp only [aff, start, corner3]; ring
    · intro q hq
      simp only [Triangle.corners, start, List.mem_cons, List.not_mem_nil, or_false] at hq
      rcases hq with rfl | rfl | rfl <;> simp only [aff, corner1, corner2, corner3] <;> linarith
    · intro q hq
      have := hb.right q hq
      have := hb.up q hq
      simp only [aff]; linarith
  · refine side _ _ 1 (-1) (y2 - x1) ?_ ?_ ?_ ?_
    · simp only [aff, start, corner1]; ring
    · simp only [aff, start, corner3]; ring
    · intro q hq
      simp only [Triangle.corners, start, List.mem_cons, List.not_mem_nil, or_false] at hq
      rcases hq with rfl | rfl | rfl <;> simp only [aff, corner1, corner2, corner3] <;> linarith
    · intro q hq
      have := hb.left q hq
      have := hb.up q hq
      simp only [aff]; linarith

theorem start_proper : (start x1 x2 y1 y2).Proper := by
  obtain ⟨hx, hy⟩ := hb.wide
  refine ⟨⟨by simp [start, corner1, corner2], .inl ?_⟩, ⟨by simp [start, corner2, corner3], .inr ?_⟩,
    ⟨by simp [start, corner1, corner3], .inr ?_⟩⟩ <;> simp only [start, corner1, corner2, corner3] <;> intro h <;> linarith

theorem start_area : area2 (start x1 x2 y1 y2) ≠ 0 := by
  obtain ⟨hx, hy⟩ := hb.wide
  have : area2 (start x1 x2 y1 y2) = (x2 - x1 + 2 * (y2 - y1)) * (y2 - y1 + (x2 - x1) / 2) := by
    simp only [area2, start, corner1, corner2, corner3]; ring
  rw [this]
  exact (mul_pos (by linarith) (by linarith)).ne'

theorem points_distinct (hd : Distinct vs) (hid : ∀ v ∈ vs, v.id ≠ "super1" ∧ v.id ≠ "super2" ∧ v.id ≠ "super3") :
    Distinct (points vs x1 x2 y1 y2) := by
  obtain ⟨hx, hy⟩ := hb.wide
  have cc : ∀ u ∈ (start x1 x2 y1 y2).corners, ∀ w ∈ (start x1 x2 y1 y2).corners,
      (u.id = w.id → u = w) ∧ (u.x = w.x → u.y = w.y → u = w) := by
    intro u hu w hw
    simp only [Triangle.corners, start, List.mem_cons, List.not_mem_nil, or_false] at hu hw
    rcases hu with rfl | rfl | rfl <;> rcases hw with rfl | rfl | rfl <;> constructor <;> intro h <;>
      first
      | rfl
      | (exfalso; revert h; simp [corner1, corner2, corner3]; done)
      | (intro h'; first | rfl | (exfalso; simp only [corner1, corner2, corner3] at h h'; linarith))
  have cv : ∀ u ∈ (start x1 x2 y1 y2).corners, ∀ w ∈ vs, u.id ≠ w.id ∧ ¬ (u.x = w.x ∧ u.y = w.y) := by
    intro u hu w hw
    have h1 := hid w hw
    have h2 := hb.left w hw
    have h3 := hb.right w hw
    have h4 := hb.up w hw
    simp only [Triangle.corners, start, List.mem_cons, List.not_mem_nil, or_false] at hu
    rcases hu with rfl | rfl | rfl
    · exact ⟨fun h => h1.1 h.symm, fun h => by simp only [corner1] at h; linarith [h.1]⟩
    · exact ⟨fun h => h1.2.1 h.symm, fun h => by simp only [corner2] at h; linarith [h.1]⟩
    · exact ⟨fun h => h1.2.2 h.symm, fun h => by simp only [corner3] at h; linarith [h.2]⟩
  intro u hu w hw
  rcases List.mem_append.mp hu with hu | hu <;> rcases List.mem_append.mp hw with hw | hw
  · exact cc u hu w hw
  · have := cv u hu w hw
    exact ⟨fun h => absurd h this.1, fun h h' => absurd ⟨h, h'⟩ this.2⟩
  · have := cv w hw u hu
    exact ⟨fun h => absurd h.symm this.1, fun h h' => absurd ⟨h.symm, h'.symm⟩ this.2⟩
  · exact hd u hu w hw

theorem start_del : Del (points vs x1 x2 y1 y2) (start x1 x2 y1 y2) (start x1 x2 y1 y2).corners [start x1 x2 y1 y2] := by
  refine ⟨?_, ?_, ?_, ?_⟩
  · intro t ht; rw [List.mem_singleton] at ht; subst ht; exact fun w hw => hw
  · intro t ht; rw [List.mem_singleton] at ht; subst ht; exact start_proper hb
  · intro t ht; rw [List.mem_singleton] at ht; subst ht
    refine ⟨start_area hb, ?_⟩
    obtain ⟨ox, oy, r2, h⟩ := circumcircle_exists _ (start_area hb)
    exact ⟨ox, oy, r2, h, fun q hq => (circle_corner h hq).ge⟩
  · intro φ; simp [bdAll]

/-- The triangles after the whole run. -/
theorem run_del (s : Sorts) (hE : StdSort Edge.lt s.edges) (hd : Distinct vs)
    (hid : ∀ v ∈ vs, v.id ≠ "super1" ∧ v.id ≠ "super2" ∧ v.id ≠ "super3") (hs : Sharp (points vs x1 x2 y1 y2)) :
    Del (points vs x1 x2 y1 y2) (start x1 x2 y1 y2) (points vs x1 x2 y1 y2)
      ((points vs x1 x2 y1 y2).foldl (insertVertex s) [start x1 x2 y1 y2]) := by
  have hU := points_distinct hb hd hid
  have hc : ∀ w ∈ (start x1 x2 y1 y2).corners, w ∈ points vs x1 x2 y1 y2 := fun w hw => List.mem_append.mpr (.inl hw)
  have h0 := start_del hb
  have h1 := del_run s hE hU hs (start_hull hb) _ (fun v hv => hv) hc (fun w hw => hw) h0
  have hsub : ∀ q, q ∈ (start x1 x2 y1 y2).corners ++ points vs x1 x2 y1 y2 ↔ q ∈ points vs x1 x2 y1 y2 := by
    intro q
    rw [List.mem_append]
    exact ⟨fun h => h.elim (hc q) id, .inr⟩
  refine ⟨fun t ht w hw => (hsub w).mp (h1.corners t ht w hw), h1.proper, ?_, h1.boundary⟩
  intro t ht
  obtain ⟨ha, ox, oy, r2, hcc, he⟩ := h1.empty t ht
  exact ⟨ha, ox, oy, r2, hcc, fun q hq => he q ((hsub q).mpr hq)⟩

end

/-! ## Points on a grid -/

/-- Both coordinates are multiples of `h`. -/
def OnGrid (h : ℝ) (v : Vertex) : Prop := ∃ i j : ℤ, v.x = i * h ∧ v.y = j * h

theorem power_det {t : Triangle} {ox oy r2 : ℝ} (h : Circumcircle t ox oy r2) (v : Vertex) :
    area2 t ^ 2 * (r2 - dist2 ox oy v) = area2 t * det3
      (t.a.x - v.x) (t.a.y - v.y) ((t.a.x * t.a.x - v.x * v.x) + (t.a.y * t.a.y - v.y * v.y))
      (t.b.x - v.x) (t.b.y - v.y) ((t.b.x * t.b.x - v.x * v.x) + (t.b.y * t.b.y - v.y * v.y))
      (t.c.x - v.x) (t.c.y - v.y) ((t.c.x * t.c.x - v.x * v.x) + (t.c.y * t.c.y - v.y * v.y)) := by
  obtain ⟨hA, hB, hC⟩ := h
  rw [pow_two, mul_assoc]
  congr 1
  simp only [det3, area2, dist2] at *
  linear_combination
    -((t.b.x - v.x) * (t.c.y - v.y) - (t.b.y - v.y) * (t.c.x - v.x)) * hA -
    ((t.a.y - v.y) * (t.c.x - v.x) - (t.a.x - v.x) * (t.c.y - v.y)) * hB -
    ((t.a.x - v.x) * (t.b.y - v.y) - (t.b.x - v.x) * (t.a.y - v.y)) * hC

/-- On a grid of five centimetres the tolerance decides nothing. -/
theorem grid_sharp {U : List Vertex} (h : ∀ v ∈ U, OnGrid (1 / 20) v) : Sharp U := by
  intro t ht ox oy r2 hc v hv
  rw [power_det hc]
  obtain ⟨ai, aj, ax, ay⟩ := h _ (ht t.a (by simp [Triangle.corners]))
  obtain ⟨bi, bj, bx, by'⟩ := h _ (ht t.b (by simp [Triangle.corners]))
  obtain ⟨ci, cj, cx, cy⟩ := h _ (ht t.c (by simp [Triangle.corners]))
  obtain ⟨vi, vj, vx, vy⟩ := h v hv
  set n : ℤ := ((bi - ai) * (cj - aj) - (ci - ai) * (bj - aj)) *
    ((ai - vi) * ((bj - vj) * ((ci * ci - vi * vi) + (cj * cj - vj * vj)) - ((bi * bi - vi * vi) + (bj * bj - vj * vj)) * (cj - vj)) -
     (aj - vj) * ((bi - vi) * ((ci * ci - vi * vi) + (cj * cj - vj * vj)) - ((bi * bi - vi * vi) + (bj * bj - vj * vj)) * (ci - vi)) +
     ((ai * ai - vi * vi) + (aj * aj - vj * vj)) * ((bi - vi) * (cj - vj) - (bj - vj) * (ci - vi))) with hn
  have key : area2 t * det3
      (t.a.x - v.x) (t.a.y - v.y) ((t.a.x * t.a.x - v.x * v.x) + (t.a.y * t.a.y - v.y * v.y))
      (t.b.x - v.x) (t.b.y - v.y) ((t.b.x * t.b.x - v.x * v.x) + (t.b.y * t.b.y - v.y * v.y))
      (t.c.x - v.x) (t.c.y - v.y) ((t.c.x * t.c.x - v.x * v.x) + (t.c.y * t.c.y - v.y * v.y)) = (n : ℝ) / 64000000 := by
    simp only [area2, det3]
    rw [ax, ay, bx, by', cx, cy, vx, vy, hn]
    push_cast
    ring
  rw [key]
  rcases le_or_gt n 0 with h0 | h0
  · left
    have : (n : ℝ) ≤ 0 := by exact_mod_cast h0
    linarith
  · right
    have : (1 : ℝ) ≤ n := by exact_mod_cast h0
    unfold eps
    have h1 : (1 : ℝ) / 64000000 ≤ (n : ℝ) / 64000000 := by linarith
    refine lt_of_lt_of_le ?_ h1
    norm_num

theorem points_grid {vs : List Vertex} {x1 x2 y1 y2 : ℝ} (hb : Box vs x1 x2 y1 y2) (h : ∀ v ∈ vs, OnGrid (1 / 10) v) :
    ∀ v ∈ points vs x1 x2 y1 y2, OnGrid (1 / 20) v := by
  obtain ⟨v1, hv1, e1⟩ := hb.atLeft
  obtain ⟨v2, hv2, e2⟩ := hb.atRight
  obtain ⟨v3, hv3, e3⟩ := hb.atDown
  obtain ⟨v4, hv4, e4⟩ := hb.atUp
  obtain ⟨i1, -, h1, -⟩ := h v1 hv1
  obtain ⟨i2, -, h2, -⟩ := h v2 hv2
  obtain ⟨-, i3, -, h3⟩ := h v3 hv3
  obtain ⟨-, i4, -, h4⟩ := h v4 hv4
  intro v hv
  rcases List.mem_append.mp hv with hv | hv
  · simp only [Triangle.corners, start, List.mem_cons, List.not_mem_nil, or_false] at hv
    rcases hv with rfl | rfl | rfl
    · exact ⟨2 * (i1 - 100) + 2 * (i3 - 100) - 2 * (i4 + 100), 2 * (i3 - 100), by simp only [corner1]; push_cast; linarith,
        by simp only [corner1]; push_cast; linarith⟩
    · exact ⟨2 * (i2 + 100) + 2 * (i4 + 100) - 2 * (i3 - 100), 2 * (i3 - 100), by simp only [corner2]; push_cast; linarith,
        by simp only [corner2]; push_cast; linarith⟩
    · exact ⟨(i1 - 100) + (i2 + 100), 2 * (i4 + 100) + ((i2 + 100) - (i1 - 100)), by simp only [corner3]; push_cast; linarith,
        by simp only [corner3]; push_cast; linarith⟩
  · obtain ⟨i, j, hx, hy⟩ := h v hv
    exact ⟨2 * i, 2 * j, by rw [hx]; push_cast; ring, by rw [hy]; push_cast; ring⟩

end Verif.Triang
