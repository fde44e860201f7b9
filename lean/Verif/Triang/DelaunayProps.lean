import Verif.Triang.DelaunayOnce
import Verif.Triang.Example

/-!
# C95: the triangulation is the Delaunay triangulation
-/

namespace Verif.Triang

open Verif.Geometry (det3 eps)

/-- The vertices given to `TriangulateVertices`: the same id or the same place only for the same vertex, none of the three ids
the code uses itself, coordinates in whole decimetres. -/
structure Input (vertices : List Vertex) : Prop where
  distinct : Distinct vertices
  ids : ∀ v ∈ vertices, v.id ≠ "super1" ∧ v.id ≠ "super2" ∧ v.id ≠ "super3"
  grid : ∀ v ∈ vertices, OnGrid (1 / 10) v

/-- The run behind a result. -/
theorem result_run (s : Sorts) (hE : StdSort Edge.lt s.edges) (hT : ∀ l, (s.triangles l).Perm l) {vertices : List Vertex}
    (h : Input vertices) (h3 : 3 ≤ vertices.length) (maxedge : ℝ) : ∃ x1 x2 y1 y2 ts, Box vertices x1 x2 y1 y2 ∧
      Del (points vertices x1 x2 y1 y2) (start x1 x2 y1 y2) (points vertices x1 x2 y1 y2) ts ∧ ts.Pairwise Other ∧
      (triangulateVertices s vertices maxedge).Perm
        (ts.filter (fun t => !dropped (corner1 x1 y1 y2) (corner2 x2 y1 y2) (corner3 x1 x2 y2) maxedge t)) := by
  cases vertices with
  | nil => simp at h3
  | cons v0 vs =>
    obtain ⟨x1, x2, y1, y2, hb, hsv⟩ := super_box v0 vs
    have hs := grid_sharp (points_grid hb h.grid)
    refine ⟨x1, x2, y1, y2, _, hb, run_del hb s hE h.distinct h.ids hs, run_once hb s hE h.distinct h.ids hs, ?_⟩
    unfold triangulateVertices
    rw [if_neg (by omega)]
    simp only [hsv]
    exact hT _

theorem result_nil (s : Sorts) {vertices : List Vertex} (h3 : ¬ 3 ≤ vertices.length) (maxedge : ℝ) :
    triangulateVertices s vertices maxedge = [] := by
  unfold triangulateVertices
  rw [if_pos (by omega)]

/-- A kept triangle has no corner of the starting triangle. -/
theorem kept_corner {vs : List Vertex} {x1 x2 y1 y2 maxedge : ℝ} {t : Triangle} (hc : ∀ w ∈ t.corners, w ∈ points vs x1 x2 y1 y2)
    (hd : dropped (corner1 x1 y1 y2) (corner2 x2 y1 y2) (corner3 x1 x2 y2) maxedge t = false) : ∀ w ∈ t.corners, w ∈ vs := by
  intro w hw
  have hid : w.id ≠ "super1" ∧ w.id ≠ "super2" ∧ w.id ≠ "super3" := by
    unfold dropped at hd
    simp only [Bool.or_eq_false_iff, Vertex.eqv, beq_eq_false_iff_ne, ne_eq, corner1, corner2, corner3] at hd
    simp only [Triangle.corners, List.mem_cons, List.not_mem_nil, or_false] at hw
    rcases hw with rfl | rfl | rfl <;> tauto
  rcases List.mem_append.mp (hc w hw) with h | h
  · simp only [Triangle.corners, start, List.mem_cons, List.not_mem_nil, or_false] at h
    rcases h with rfl | rfl | rfl <;> simp [corner1, corner2, corner3] at hid
  · exact h

/-- **C95.** Every returned triangle has a positive area and three of the given vertices as corners, and none of the given
vertices lies strictly inside its circumcircle. -/
theorem C95_delaunay (s : Sorts) (hE : StdSort Edge.lt s.edges) (hT : ∀ l, (s.triangles l).Perm l) (vertices : List Vertex)
    (h : Input vertices) (maxedge : ℝ) (t : Triangle) (ht : t ∈ triangulateVertices s vertices maxedge) :
    area2 t ≠ 0 ∧ (∀ w ∈ t.corners, w ∈ vertices) ∧
    ∃ ox oy r2, Circumcircle t ox oy r2 ∧ ∀ v ∈ vertices, r2 ≤ dist2 ox oy v := by
  by_cases h3 : 3 ≤ vertices.length
  · obtain ⟨x1, x2, y1, y2, ts, hb, hdel, -, hp⟩ := result_run s hE hT h h3 maxedge
    obtain ⟨ht, hd⟩ := List.mem_filter.mp (hp.mem_iff.mp ht)
    obtain ⟨ha, ox, oy, r2, hc, he⟩ := hdel.empty t ht
    exact ⟨ha, kept_corner (hdel.corners t ht) (by simpa using hd), ox, oy, r2, hc,
      fun v hv => he v (List.mem_append.mpr (.inr hv))⟩
  · rw [result_nil s h3] at ht
    simp at ht

/-- **C95.** No two entries of the result are the same triangle, not even with the corners in another order. -/
theorem C95_once (s : Sorts) (hE : StdSort Edge.lt s.edges) (hT : ∀ l, (s.triangles l).Perm l) (vertices : List Vertex)
    (h : Input vertices) (maxedge : ℝ) :
    (triangulateVertices s vertices maxedge).Pairwise (fun t u => ¬ t.corners.Perm u.corners) := by
  by_cases h3 : 3 ≤ vertices.length
  · obtain ⟨x1, x2, y1, y2, ts, -, -, ho, hp⟩ := result_run s hE hT h h3 maxedge
    exact (hp.pairwise_iff (fun {t u} h => other_symm h)).mpr (ho.filter _)
  · rw [result_nil s h3]
    exact List.Pairwise.nil

/-- A place strictly inside the triangle. -/
def StrictlyInside (t : Triangle) (x y : ℝ) : Prop :=
  ∃ k l m : ℝ, 0 < k ∧ 0 < l ∧ 0 < m ∧ k + l + m = 1 ∧ x = k * t.a.x + l * t.b.x + m * t.c.x ∧
    y = k * t.a.y + l * t.b.y + m * t.c.y

/-- **C95.** If a place strictly inside a returned triangle also belongs to another returned triangle, all corners of the two
triangles lie on one circle. -/
theorem C95_overlap (s : Sorts) (hE : StdSort Edge.lt s.edges) (hT : ∀ l, (s.triangles l).Perm l) (vertices : List Vertex)
    (h : Input vertices) (maxedge : ℝ) (t u : Triangle) (ht : t ∈ triangulateVertices s vertices maxedge)
    (hu : u ∈ triangulateVertices s vertices maxedge) (x y : ℝ) (hxt : StrictlyInside t x y) (hxu : Inside u x y) :
    ∃ ox oy r2, Circumcircle t ox oy r2 ∧ Circumcircle u ox oy r2 := by
  obtain ⟨ha, hct, ox, oy, r2, hc, he⟩ := C95_delaunay s hE hT vertices h maxedge t ht
  obtain ⟨-, hcu, ox', oy', r2', hc', he'⟩ := C95_delaunay s hE hT vertices h maxedge u hu
  obtain ⟨k, l, m, hk, hl, hm, hs, rfl, rfl⟩ := hxt
  have key := same_circle ha hc hc' (fun w hw => he w (hcu w hw)) (fun w hw => he' w (hct w hw)) hk hl hm hs hxu
  refine ⟨ox, oy, r2, hc, ?_, ?_, ?_⟩
  · have := key u.a; rw [hc'.1] at this; linarith
  · have := key u.b; rw [hc'.2.1] at this; linarith
  · have := key u.c; rw [hc'.2.2] at this; linarith

theorem perm_of_subset {l : List Vertex} {t : Triangle} (ht : t.Proper) {a b c : Vertex} (hl : l = [a, b, c])
    (h : ∀ w ∈ t.corners, w ∈ l) : t.corners.Perm l := by
  have h12 : t.a ≠ t.b := fun h => ht.1.1 (by rw [h])
  have h23 : t.b ≠ t.c := fun h => ht.2.1.1 (by rw [h])
  have h13 : t.a ≠ t.c := fun h => ht.2.2.1 (by rw [h])
  have hn : t.corners.Nodup := by simp [Triangle.corners, h12, h23, h13]
  have hsub : t.corners.Subperm l := List.subperm_of_subset hn h
  exact hsub.perm_of_length_le (by simp [hl, Triangle.corners])

theorem length_nonneg (e : Edge) : 0 ≤ e.length := Real.sqrt_nonneg _

theorem sin_low (x y z : ℝ) (hx : 0 ≤ x) (hy : 0 ≤ y) (hz : 0 ≤ z) : ¬ isBelow (quotient (2 * x) (y * z)) (-1) := by
  rintro ⟨v, h, hv⟩
  unfold quotient at h
  split_ifs at h
  have : 0 ≤ 2 * x / (y * z) := by positivity
  rw [Option.some.injEq] at h
  linarith

theorem vdist_symm (a b : Vertex) : vdist a b = vdist b a := by
  unfold vdist; congr 1; ring

theorem kept_of {t : Triangle} {s1 s2 s3 : Vertex} {maxedge : ℝ}
    (hid : ∀ w ∈ t.corners, w.id ≠ s1.id ∧ w.id ≠ s2.id ∧ w.id ≠ s3.id)
    (hl : ∀ u ∈ t.corners, ∀ w ∈ t.corners, vdist u w ≤ maxedge) : dropped s1 s2 s3 maxedge t = false := by
  have ha := hid t.a (by simp [Triangle.corners])
  have hb := hid t.b (by simp [Triangle.corners])
  have hc := hid t.c (by simp [Triangle.corners])
  have l1 := hl t.a (by simp [Triangle.corners]) t.b (by simp [Triangle.corners])
  have l2 := hl t.b (by simp [Triangle.corners]) t.c (by simp [Triangle.corners])
  have l3 := hl t.a (by simp [Triangle.corners]) t.c (by simp [Triangle.corners])
  have hs : 0 ≤ t.square := by unfold Triangle.square; positivity
  unfold dropped
  simp only [Bool.or_eq_false_iff, Vertex.eqv, beq_eq_false_iff_ne, ne_eq,
    Triangle.sinA, Triangle.sinB, Triangle.sinC]
  have k1 := (sin_low t.square _ _ hs (length_nonneg t.ac) (length_nonneg t.ab))
  have k2 := (sin_low t.square _ _ hs (length_nonneg t.bc) (length_nonneg t.ab))
  have k3 := (sin_low t.square _ _ hs (length_nonneg t.bc) (length_nonneg t.ac))
  refine ⟨⟨⟨⟨⟨⟨⟨⟨⟨⟨⟨⟨⟨⟨ha.1, hb.1⟩, hc.1⟩, ha.2.1⟩, hb.2.1⟩, hc.2.1⟩, ha.2.2⟩, hb.2.2⟩, hc.2.2⟩, ?_⟩, ?_⟩, ?_⟩, @decide_eq_false _ (_) k1⟩, @decide_eq_false _ (_) k2⟩, @decide_eq_false _ (_) k3⟩
  · exact decide_eq_false (by unfold Triangle.ab; rw [mkEdge_length]; exact not_lt.mpr l1)
  · exact decide_eq_false (by unfold Triangle.bc; rw [mkEdge_length]; exact not_lt.mpr l2)
  · exact decide_eq_false (by unfold Triangle.ac; rw [mkEdge_length]; exact not_lt.mpr l3)

/-- A triangle of given vertices is returned if its sides are not longer than the limit and its circumcircle neither contains nor
passes through another given vertex or a corner of the starting triangle. -/
theorem complete_points (s : Sorts) (hE : StdSort Edge.lt s.edges) (hT : ∀ l, (s.triangles l).Perm l) (vertices : List Vertex)
    (h : Input vertices) (maxedge : ℝ) (t : Triangle) (hc : ∀ w ∈ t.corners, w ∈ vertices) (ha : area2 t ≠ 0)
    (hl : vdist t.a t.b ≤ maxedge ∧ vdist t.b t.c ≤ maxedge ∧ vdist t.a t.c ≤ maxedge)
    (ox oy r2 : ℝ) (hcir : Circumcircle t ox oy r2)
    (hout : ∀ x1 x2 y1 y2, Box vertices x1 x2 y1 y2 → ∀ q ∈ points vertices x1 x2 y1 y2, q ∉ t.corners → r2 < dist2 ox oy q) :
    ∃ u ∈ triangulateVertices s vertices maxedge, u.corners.Perm t.corners := by
  classical
  have hta := hc t.a (by simp [Triangle.corners])
  have htb := hc t.b (by simp [Triangle.corners])
  have htc := hc t.c (by simp [Triangle.corners])
  -- three different vertices
  have d12 : t.a ≠ t.b := fun h => ha (by simp only [area2]; rw [h]; ring)
  have d23 : t.b ≠ t.c := fun h => ha (by simp only [area2]; rw [h]; ring)
  have d13 : t.a ≠ t.c := fun h => ha (by simp only [area2]; rw [h]; ring)
  have h3 : 3 ≤ vertices.length := by
    have hn : t.corners.Nodup := by simp [Triangle.corners, d12, d23, d13]
    have := (List.subperm_of_subset hn hc).length_le
    simpa [Triangle.corners] using this
  obtain ⟨x1, x2, y1, y2, ts, hb, hdel, -, hp⟩ := result_run s hE hT h h3 maxedge
  obtain ⟨hx, hy⟩ := hb.wide
  have hall := hout x1 x2 y1 y2 hb
  -- a place strictly inside the triangle
  obtain ⟨k, l, m, hk, hl', hm, hsum, hS⟩ := generic_inside t ha ((points vertices x1 x2 y1 y2).map Vertex.x).toFinset
  set x := k * t.a.x + l * t.b.x + m * t.c.x with hxdef
  set y := k * t.a.y + l * t.b.y + m * t.c.y with hydef
  have hne : ∀ w ∈ points vertices x1 x2 y1 y2, w.x ≠ x := by
    intro w hw heq
    apply hS
    rw [List.mem_toFinset, List.mem_map]
    exact ⟨w, hw, heq⟩
  have aff3 : ∀ (α β γ : ℝ), 0 < aff α β γ t.a → 0 < aff α β γ t.b → 0 < aff α β γ t.c → 0 < α * x + β * y + γ := by
    intro α β γ p1 p2 p3
    have q1 := mul_pos hk p1
    have q2 := mul_pos hl' p2
    have q3 := mul_pos hm p3
    have e : α * x + β * y + γ = k * aff α β γ t.a + l * aff α β γ t.b + m * aff α β γ t.c := by
      simp only [aff]; rw [hxdef, hydef]; linear_combination -γ * hsum
    linarith
  have i1 : y1 < y := by
    have := aff3 0 1 (-y1) (by simp only [aff]; linarith [hb.down _ hta]) (by simp only [aff]; linarith [hb.down _ htb])
      (by simp only [aff]; linarith [hb.down _ htc])
    linarith
  have i2 : y < x + y2 - x1 := by
    have := aff3 1 (-1) (y2 - x1) (by simp only [aff]; linarith [hb.left _ hta, hb.up _ hta])
      (by simp only [aff]; linarith [hb.left _ htb, hb.up _ htb]) (by simp only [aff]; linarith [hb.left _ htc, hb.up _ htc])
    linarith
  have i3 : y < x2 + y2 - x := by
    have := aff3 (-1) (-1) (x2 + y2) (by simp only [aff]; linarith [hb.right _ hta, hb.up _ hta])
      (by simp only [aff]; linarith [hb.right _ htb, hb.up _ htb]) (by simp only [aff]; linarith [hb.right _ htc, hb.up _ htc])
    linarith
  have hmid : x ≠ (x1 + x2) / 2 := fun h => hne (corner3 x1 x2 y2) (by simp [points, start, Triangle.corners]) h.symm
  obtain ⟨u, hu, hin⟩ := covered hdel.proper (hdel.boundary _)
    (start_below (by linarith) (by linarith) hmid i1 i2 i3) (fun t ht w hw => hne w (hdel.corners t ht w hw))
  obtain ⟨hua, ox', oy', r', huc, hue⟩ := hdel.empty u hu
  have hge : ∀ w ∈ u.corners, r2 ≤ dist2 ox oy w := by
    intro w hw
    by_cases hwt : w ∈ t.corners
    · exact (circle_corner hcir hwt).ge
    · exact (hall w (hdel.corners u hu w hw) hwt).le
  have key := same_circle ha hcir huc hge (fun w hw => hue w (List.mem_append.mpr (.inr (hc w hw)))) hk hl' hm hsum hin
  have hsub : ∀ w ∈ u.corners, w ∈ t.corners := by
    intro w hw
    by_contra hn
    have h1 := hall w (hdel.corners u hu w hw) hn
    have h2 := key w
    rw [circle_corner huc hw] at h2
    linarith
  have hperm : u.corners.Perm t.corners := perm_of_subset (hdel.proper u hu) rfl hsub
  refine ⟨u, hp.mem_iff.mpr (List.mem_filter.mpr ⟨hu, ?_⟩), hperm⟩
  rw [Bool.not_eq_true', kept_of]
  · intro w hw
    simp only [corner1, corner2, corner3]
    exact h.ids w (hc w (hsub w hw))
  · have h0 : 0 ≤ maxedge := le_trans (Real.sqrt_nonneg _) hl.1
    have hz : ∀ a, vdist a a ≤ maxedge := by
      intro a
      have : vdist a a = 0 := by unfold vdist; simp
      rw [this]; exact h0
    intro a haa b hbb
    have haa := hsub a haa
    have hbb := hsub b hbb
    simp only [Triangle.corners, List.mem_cons, List.not_mem_nil, or_false] at haa hbb
    rcases haa with rfl | rfl | rfl <;> rcases hbb with rfl | rfl | rfl
    · exact hz _
    · exact hl.1
    · exact hl.2.2
    · rw [vdist_symm]; exact hl.1
    · exact hz _
    · exact hl.2.1
    · rw [vdist_symm]; exact hl.2.2
    · rw [vdist_symm]; exact hl.2.1
    · exact hz _

/-- **C95.** A triangle of given vertices is returned if its sides are not longer than the limit, its circumcircle neither contains
nor passes through another given vertex, and the circumcircle leaves the bounding rectangle of the given vertices by at
most ten metres on each side. -/
theorem C95_complete (s : Sorts) (hE : StdSort Edge.lt s.edges) (hT : ∀ l, (s.triangles l).Perm l) (vertices : List Vertex)
    (h : Input vertices) (maxedge : ℝ) (t : Triangle) (hc : ∀ w ∈ t.corners, w ∈ vertices) (ha : area2 t ≠ 0)
    (hl : vdist t.a t.b ≤ maxedge ∧ vdist t.b t.c ≤ maxedge ∧ vdist t.a t.c ≤ maxedge)
    (ox oy r : ℝ) (hr : 0 ≤ r) (hcir : Circumcircle t ox oy (r ^ 2))
    (hempty : ∀ v ∈ vertices, v ∉ t.corners → r ^ 2 < dist2 ox oy v)
    (hleft : ∃ v ∈ vertices, v.x - 10 ≤ ox - r) (hright : ∃ v ∈ vertices, ox + r ≤ v.x + 10)
    (hup : ∃ v ∈ vertices, oy + r ≤ v.y + 10) :
    ∃ u ∈ triangulateVertices s vertices maxedge, u.corners.Perm t.corners := by
  refine complete_points s hE hT vertices h maxedge t hc ha hl ox oy (r ^ 2) hcir ?_
  intro x1 x2 y1 y2 hb
  obtain ⟨hx, hy⟩ := hb.wide
  -- the corners of the starting triangle are outside
  have hsup : ∀ q ∈ (start x1 x2 y1 y2).corners, r ^ 2 < dist2 ox oy q := by
    have far : ∀ (d z : ℝ), r < d → d ^ 2 + z ^ 2 > r ^ 2 := by
      intro d z hd
      have := mul_self_lt_mul_self hr hd
      nlinarith [sq_nonneg z]
    intro q hq
    simp only [Triangle.corners, start, List.mem_cons, List.not_mem_nil, or_false] at hq
    rcases hq with rfl | rfl | rfl
    · obtain ⟨v, hv, hle⟩ := hleft
      have := hb.left v hv
      have h1 := far (ox - (x1 + y1 - y2)) (y1 - oy) (by linarith)
      simp only [dist2, corner1]
      nlinarith
    · obtain ⟨v, hv, hle⟩ := hright
      have := hb.right v hv
      have h1 := far (x2 + y2 - y1 - ox) (y1 - oy) (by linarith)
      simp only [dist2, corner2]
      linarith
    · obtain ⟨v, hv, hle⟩ := hup
      have := hb.up v hv
      have h1 := far (y2 + (x2 - x1) / 2 - oy) ((x1 + x2) / 2 - ox) (by linarith)
      simp only [dist2, corner3]
      linarith
  intro q hq hn
  rcases List.mem_append.mp hq with hq | hq
  · exact hsup q hq
  · exact hempty q hq hn

/-- **C95.** If no four given vertices lie on one circle, two entries of the result do not overlap: a place strictly inside one of
them that belongs to the other one shows that they are the same triangle. -/
theorem C95_disjoint (s : Sorts) (hE : StdSort Edge.lt s.edges) (hT : ∀ l, (s.triangles l).Perm l) (vertices : List Vertex)
    (h : Input vertices) (maxedge : ℝ)
    (hgen : ∀ ox oy r2 (l : List Vertex), l.Nodup → (∀ v ∈ l, v ∈ vertices ∧ dist2 ox oy v = r2) → l.length ≤ 3)
    (t u : Triangle) (ht : t ∈ triangulateVertices s vertices maxedge)
    (hu : u ∈ triangulateVertices s vertices maxedge) (x y : ℝ) (hxt : StrictlyInside t x y) (hxu : Inside u x y) :
    t.corners.Perm u.corners := by
  obtain ⟨ox, oy, r2, hct, hcu⟩ := C95_overlap s hE hT vertices h maxedge t u ht hu x y hxt hxu
  obtain ⟨-, hvt, -⟩ := C95_delaunay s hE hT vertices h maxedge t ht
  obtain ⟨-, hvu, -⟩ := C95_delaunay s hE hT vertices h maxedge u hu
  have hn : ∀ t ∈ triangulateVertices s vertices maxedge, t.corners.Nodup := by
    intro t ht
    have := (C48_corners s hE.perm hT vertices maxedge t ht).1
    have h12 : t.a ≠ t.b := fun h => this.1 (by rw [h])
    have h23 : t.b ≠ t.c := fun h => this.2.1 (by rw [h])
    have h13 : t.a ≠ t.c := fun h => this.2.2 (by rw [h])
    simp [Triangle.corners, h12, h23, h13]
  have hsub : ∀ w ∈ t.corners, w ∈ u.corners := by
    intro w hw
    by_contra hnot
    have := hgen ox oy r2 (w :: u.corners) (List.nodup_cons.mpr ⟨hnot, hn u hu⟩) (by
      intro v hv
      rcases List.mem_cons.mp hv with rfl | hv
      · exact ⟨hvt _ hw, circle_corner hct hw⟩
      · exact ⟨hvu v hv, circle_corner hcu hv⟩)
    simp [Triangle.corners] at this
  exact (List.subperm_of_subset (hn t ht) hsub).perm_of_length_le (by simp [Triangle.corners])

/-- **C95.** What the ten metres mean: three points of a corridor, five metres apart and the middle one ten centimetres off the
line through the others, give no triangle, whatever the limit. -/
theorem C95_corridor (s : Sorts) (hE : StdSort Edge.lt s.edges) (hT : ∀ l, (s.triangles l).Perm l) (maxedge : ℝ) :
    triangulateVertices s [⟨0, 0, "a"⟩, ⟨5, 1 / 10, "b"⟩, ⟨10, 0, "c"⟩] maxedge = [] := by
  have hin : Input [⟨0, 0, "a"⟩, ⟨5, 1 / 10, "b"⟩, ⟨10, 0, "c"⟩] := by
    refine ⟨?_, ?_, ?_⟩
    · intro u hu w hw
      simp only [List.mem_cons, List.not_mem_nil, or_false] at hu hw
      rcases hu with rfl | rfl | rfl <;> rcases hw with rfl | rfl | rfl <;> simp
    · intro u hu
      simp only [List.mem_cons, List.not_mem_nil, or_false] at hu
      rcases hu with rfl | rfl | rfl <;> simp
    · intro u hu
      simp only [List.mem_cons, List.not_mem_nil, or_false] at hu
      rcases hu with rfl | rfl | rfl
      · exact ⟨0, 0, by norm_num, by norm_num⟩
      · exact ⟨50, 1, by norm_num, by norm_num⟩
      · exact ⟨100, 0, by norm_num, by norm_num⟩
  obtain ⟨x1, x2, y1, y2, ts, hb, hdel, -, hp⟩ := result_run s hE hT hin (by simp) maxedge
  rw [List.eq_nil_iff_forall_not_mem]
  intro t ht
  obtain ⟨ht, hd⟩ := List.mem_filter.mp (hp.mem_iff.mp ht)
  have hc := kept_corner (hdel.corners t ht) (by simpa using hd)
  have hperm := perm_of_subset (hdel.proper t ht) rfl hc
  obtain ⟨-, ox, oy, r2, hcir, he⟩ := hdel.empty t ht
  have ha := circle_corner hcir (hperm.mem_iff.mpr (show (⟨0, 0, "a"⟩ : Vertex) ∈ _ by simp))
  have hb' := circle_corner hcir (hperm.mem_iff.mpr (show (⟨5, 1 / 10, "b"⟩ : Vertex) ∈ _ by simp))
  have hc' := circle_corner hcir (hperm.mem_iff.mpr (show (⟨10, 0, "c"⟩ : Vertex) ∈ _ by simp))
  have hs := he (corner1 x1 y1 y2) (by simp [points, start, Triangle.corners])
  -- the rectangle
  have e1 : x1 = -10 := by
    obtain ⟨v, hv, h⟩ := hb.atLeft
    have := hb.left ⟨0, 0, "a"⟩ (by simp)
    simp only [List.mem_cons, List.not_mem_nil, or_false] at hv
    rcases hv with rfl | rfl | rfl <;> norm_num at h this <;> linarith
  have e2 : y1 = -10 := by
    obtain ⟨v, hv, h⟩ := hb.atDown
    have := hb.down ⟨0, 0, "a"⟩ (by simp)
    simp only [List.mem_cons, List.not_mem_nil, or_false] at hv
    rcases hv with rfl | rfl | rfl <;> norm_num at h this <;> linarith
  have e3 : y2 = 101 / 10 := by
    obtain ⟨v, hv, h⟩ := hb.atUp
    have := hb.up ⟨5, 1 / 10, "b"⟩ (by simp)
    simp only [List.mem_cons, List.not_mem_nil, or_false] at hv
    rcases hv with rfl | rfl | rfl <;> norm_num at h this <;> linarith
  simp only [dist2, corner1] at ha hb' hc' hs
  have hox : ox = 5 := by linarith
  have hoy : oy = -2499 / 20 := by rw [hox] at *; linarith
  rw [hox, hoy, e1, e2, e3, ← ha, hox, hoy] at hs
  norm_num at hs

namespace Example

theorem input : Input [pa, pb, pc, pd] := by
  refine ⟨?_, ?_, ?_⟩
  · intro u hu w hw
    exact distinct u (by simp only [U, List.mem_cons] at *; tauto) w (by simp only [U, List.mem_cons] at *; tauto)
  · intro u hu
    simp only [List.mem_cons, List.not_mem_nil, or_false] at hu
    rcases hu with rfl | rfl | rfl | rfl <;> simp [pa, pb, pc, pd]
  · intro u hu
    simp only [List.mem_cons, List.not_mem_nil, or_false] at hu
    rcases hu with rfl | rfl | rfl | rfl
    · exact ⟨1000, 1000, by norm_num [pa], by norm_num [pa]⟩
    · exact ⟨1040, 1000, by norm_num [pb], by norm_num [pb]⟩
    · exact ⟨1000, 1040, by norm_num [pc], by norm_num [pc]⟩
    · exact ⟨1040, 1050, by norm_num [pd], by norm_num [pd]⟩

/-- A triangle of four points that meets the conditions of `C95_complete`. -/
example (s : Sorts) (hE : StdSort Edge.lt s.edges) (hT : ∀ l, (s.triangles l).Perm l) :
    ∃ u ∈ triangulateVertices s [pa, pb, pc, pd] 6, u.corners.Perm [pa, pb, pc] := by
  have h8 : Real.sqrt 8 ^ 2 = 8 := Real.sq_sqrt (by norm_num)
  have hr : Real.sqrt 8 ≤ 3 := by
    rw [show (3 : ℝ) = Real.sqrt (3 ^ 2) from (Real.sqrt_sq (by norm_num)).symm]
    exact Real.sqrt_le_sqrt (by norm_num)
  have hl : ∀ u w : Vertex, (u.x - w.x) ^ 2 + (u.y - w.y) ^ 2 ≤ 36 → vdist u w ≤ 6 := by
    intro u w h
    unfold vdist
    exact (Real.sqrt_le_sqrt h).trans (by rw [show (36 : ℝ) = 6 ^ 2 by norm_num]; rw [Real.sqrt_sq (by norm_num)])
  refine C95_complete s hE hT _ input 6 ⟨pa, pb, pc⟩ ?_ (by norm_num [area2, pa, pb, pc])
    ⟨hl _ _ (by norm_num [pa, pb]), hl _ _ (by norm_num [pb, pc]), hl _ _ (by norm_num [pa, pc])⟩ 102 102 (Real.sqrt 8)
    (Real.sqrt_nonneg _) ?_ ?_ ⟨pa, by simp, by norm_num [pa]; linarith⟩ ⟨pb, by simp, by norm_num [pb]; linarith⟩
    ⟨pc, by simp, by norm_num [pc]; linarith⟩
  · intro w hw
    simp only [Triangle.corners, List.mem_cons, List.not_mem_nil, or_false] at hw
    rcases hw with rfl | rfl | rfl <;> simp
  · rw [h8]
    norm_num [Circumcircle, dist2, pa, pb, pc]
  · intro v hv hn
    simp only [Triangle.corners, List.mem_cons, List.not_mem_nil, or_false, not_or] at hv hn
    rcases hv with rfl | rfl | rfl | rfl
    · exact absurd rfl hn.1
    · exact absurd rfl hn.2.1
    · exact absurd rfl hn.2.2
    · rw [h8]; norm_num [dist2, pd]

/-- The four points meet the condition of `C95_disjoint`. -/
example (ox oy r2 : ℝ) (l : List Vertex) (hn : l.Nodup) (h : ∀ v ∈ l, v ∈ [pa, pb, pc, pd] ∧ dist2 ox oy v = r2) :
    l.length ≤ 3 := by
  by_contra hlen
  have hsub : l.Subperm [pa, pb, pc, pd] := List.subperm_of_subset hn (fun v hv => (h v hv).1)
  have hp := hsub.perm_of_length_le (by simp only [List.length_cons, List.length_nil]; omega)
  have h1 := (h pa (hp.mem_iff.mpr (by simp))).2
  have h2 := (h pb (hp.mem_iff.mpr (by simp))).2
  have h3 := (h pc (hp.mem_iff.mpr (by simp))).2
  have h4 := (h pd (hp.mem_iff.mpr (by simp))).2
  simp only [dist2, pa, pb, pc, pd] at h1 h2 h3 h4
  linarith

end Example

end Verif.Triang
