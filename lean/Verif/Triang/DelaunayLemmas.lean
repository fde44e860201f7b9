import Verif.Triang.Boundary

/-!
# Circles through the sides, and the invariant of the insertions
-/

namespace Verif.Triang

open Verif.Geometry (det3 eps)

/-- An affine function. -/
def aff (α β γ : ℝ) (q : Vertex) : ℝ := α * q.x + β * q.y + γ

/-- An affine function that vanishes at two places vanishes on their line. -/
theorem aff_line (α β γ : ℝ) {u w v : Vertex} (hu : aff α β γ u = 0) (hw : aff α β γ w = 0) (hne : u.x ≠ w.x ∨ u.y ≠ w.y)
    (hc : area2 ⟨v, u, w⟩ = 0) : aff α β γ v = 0 := by
  have hd : 0 < (w.x - u.x) ^ 2 + (w.y - u.y) ^ 2 := by
    rcases hne with h | h
    · have := sq_pos_of_ne_zero (sub_ne_zero.mpr (Ne.symm h)); positivity
    · have := sq_pos_of_ne_zero (sub_ne_zero.mpr (Ne.symm h)); positivity
  have key : ((w.x - u.x) ^ 2 + (w.y - u.y) ^ 2) * aff α β γ v = 0 := by
    simp only [aff, area2] at *
    linear_combination ((w.x - u.x) ^ 2 + (w.y - u.y) ^ 2) * hu +
      ((v.x - u.x) * (w.x - u.x) + (v.y - u.y) * (w.y - u.y)) * (hw - hu) +
      (β * (w.x - u.x) - α * (w.y - u.y)) * hc
  rcases mul_eq_zero.mp key with h | h
  · exact absurd h hd.ne'
  · exact h

/-- A circle through two points, one side of which is given: the circle through them and a third point on that side. -/
theorem shifted_circle {u w v : Vertex} {ox oy r α β γ : ℝ} (hu : dist2 ox oy u = r) (hw : dist2 ox oy w = r)
    (hv : dist2 ox oy v < r) (lu : aff α β γ u = 0) (lw : aff α β γ w = 0) (lv : 0 < aff α β γ v) (hne : u.x ≠ w.x ∨ u.y ≠ w.y) :
    area2 ⟨v, u, w⟩ ≠ 0 ∧ ∃ px py r', Circumcircle ⟨v, u, w⟩ px py r' ∧
      ∀ q, r ≤ dist2 ox oy q → 0 ≤ aff α β γ q → r' ≤ dist2 px py q := by
  refine ⟨fun h => by rw [aff_line α β γ lu lw hne h] at lv; exact lt_irrefl _ lv, ?_⟩
  set μ := (r - dist2 ox oy v) / aff α β γ v with hμ
  have hμ0 : 0 ≤ μ := div_nonneg (by linarith) lv.le
  have hμv : μ * aff α β γ v = r - dist2 ox oy v := by rw [hμ]; field_simp
  set px := ox - μ * α / 2 with hpx
  set py := oy - μ * β / 2 with hpy
  set r' := px ^ 2 + py ^ 2 - (ox ^ 2 + oy ^ 2 - r + μ * γ) with hr'
  have key : ∀ q, dist2 px py q - r' = (dist2 ox oy q - r) + μ * aff α β γ q := by
    intro q
    rw [hr']
    simp only [dist2, aff, hpx, hpy]
    ring
  refine ⟨px, py, r', ⟨?_, ?_, ?_⟩, ?_⟩
  · have := key v; rw [hμv] at this; dsimp only; linarith
  · have := key u; rw [lu, hu] at this; dsimp only; linarith
  · have := key w; rw [lw, hw] at this; dsimp only; linarith
  · intro q h1 h2
    have := key q
    have := mul_nonneg hμ0 h2
    linarith

/-- Two circles through two points, and a third point inside the first one but not the second: the circle through the three
points contains only what one of the two circles contains. -/
theorem pencil {u w v : Vertex} {ox oy r ox' oy' r2 : ℝ} (hu : dist2 ox oy u = r) (hw : dist2 ox oy w = r)
    (hu' : dist2 ox' oy' u = r2) (hw' : dist2 ox' oy' w = r2) (hv : dist2 ox oy v < r) (hv' : r2 ≤ dist2 ox' oy' v)
    (hne : u.x ≠ w.x ∨ u.y ≠ w.y) :
    area2 ⟨v, u, w⟩ ≠ 0 ∧ ∃ px py r', Circumcircle ⟨v, u, w⟩ px py r' ∧
      ∀ q, r ≤ dist2 ox oy q → r2 ≤ dist2 ox' oy' q → r' ≤ dist2 px py q := by
  constructor
  · intro h
    -- the difference of the powers is affine
    have hd : ∀ q, aff (2 * (ox' - ox)) (2 * (oy' - oy)) (ox ^ 2 + oy ^ 2 - r - (ox' ^ 2 + oy' ^ 2 - r2)) q =
        (dist2 ox oy q - r) - (dist2 ox' oy' q - r2) := by
      intro q; simp only [aff, dist2]; ring
    have := aff_line _ _ _ ((hd u).trans (by rw [hu, hu']; ring)) ((hd w).trans (by rw [hw, hw']; ring)) hne h
    rw [hd] at this
    linarith
  · set a := r - dist2 ox oy v with ha
    set b := dist2 ox' oy' v - r2 with hb
    have ha0 : 0 < a := by rw [ha]; linarith
    have hb0 : 0 ≤ b := by rw [hb]; linarith
    have hab : a + b ≠ 0 := by positivity
    set k := b / (a + b) with hk
    set m := a / (a + b) with hm
    have hk0 : 0 ≤ k := div_nonneg hb0 (by positivity)
    have hm0 : 0 ≤ m := div_nonneg ha0.le (by positivity)
    have hkm : m = 1 - k := by rw [hk, hm]; field_simp; ring
    have hz : k * -a + m * b = 0 := by rw [hk, hm]; field_simp; ring
    set px := k * ox + m * ox' with hpx
    set py := k * oy + m * oy' with hpy
    set r' := px ^ 2 + py ^ 2 - (k * (ox ^ 2 + oy ^ 2 - r) + m * (ox' ^ 2 + oy' ^ 2 - r2)) with hr'
    have key : ∀ q, dist2 px py q - r' = k * (dist2 ox oy q - r) + m * (dist2 ox' oy' q - r2) := by
      intro q
      rw [hr']
      simp only [dist2, hpx, hpy]
      rw [hkm]
      ring
    refine ⟨px, py, r', ⟨?_, ?_, ?_⟩, ?_⟩
    · have h1 := key v
      have e1 : dist2 ox oy v - r = -a := by rw [ha]; ring
      have e2 : dist2 ox' oy' v - r2 = b := by rw [hb]
      rw [e1, e2, hz] at h1
      dsimp only; linarith
    · have := key u; rw [hu, hu'] at this; dsimp only; linarith
    · have := key w; rw [hw, hw'] at this; dsimp only; linarith
    · intro q h1 h2
      have := key q
      have := mul_nonneg hk0 (sub_nonneg.mpr h1)
      have := mul_nonneg hm0 (sub_nonneg.mpr h2)
      linarith

/-! ## The invariant -/

/-- The tolerance of the circumcircle test decides nothing: a point inside a circumcircle is so by more than the tolerance. -/
def Sharp (U : List Vertex) : Prop :=
  ∀ t : Triangle, (∀ w ∈ t.corners, w ∈ U) → ∀ ox oy r2, Circumcircle t ox oy r2 → ∀ v ∈ U,
    area2 t ^ 2 * (r2 - dist2 ox oy v) ≤ 0 ∨ area2 t ^ 2 * (r2 - dist2 ox oy v) > eps

/-- Each side of the starting triangle has all points on one side of it, and only its own ends on it. -/
def Hull (U : List Vertex) (t0 : Triangle) : Prop :=
  ∀ e ∈ t0.sides, ∃ α β γ, aff α β γ e.b = 0 ∧ aff α β γ e.e = 0 ∧ (∀ q ∈ U, 0 ≤ aff α β γ q) ∧
    ∀ q ∈ U, q ∉ t0.corners → 0 < aff α β γ q

/-- Non-degenerate, with none of the points inside its circumcircle. -/
def Empty (done : List Vertex) (t : Triangle) : Prop :=
  area2 t ≠ 0 ∧ ∃ ox oy r2, Circumcircle t ox oy r2 ∧ ∀ q ∈ done, r2 ≤ dist2 ox oy q

/-- The triangles after inserting the points `done`. -/
structure Del (U : List Vertex) (t0 : Triangle) (done : List Vertex) (ts : List Triangle) : Prop where
  corners : ∀ t ∈ ts, ∀ w ∈ t.corners, w ∈ done
  proper : ∀ t ∈ ts, t.Proper
  empty : ∀ t ∈ ts, Empty done t
  boundary : ∀ φ, bdAll φ ts = bd φ t0

theorem circle_corner {t : Triangle} {ox oy r2 : ℝ} (h : Circumcircle t ox oy r2) {w : Vertex} (hw : w ∈ t.corners) :
    dist2 ox oy w = r2 := by
  simp only [Triangle.corners, List.mem_cons, List.not_mem_nil, or_false] at hw
  rcases hw with rfl | rfl | rfl
  exacts [h.1, h.2.1, h.2.2]

theorem side_corner {t : Triangle} {e : Edge} (h : e ∈ t.sides) : e.b ∈ t.corners ∧ e.e ∈ t.corners := by
  simp only [Triangle.sides, Triangle.ab, Triangle.bc, Triangle.ac, List.mem_cons, List.not_mem_nil, or_false] at h
  simp only [Triangle.corners, List.mem_cons, List.not_mem_nil, or_false]
  rcases h with rfl | rfl | rfl
  · exact ⟨(mkEdge_mem _ _ _ (.inl rfl)).imp id Or.inl, (mkEdge_mem _ _ _ (.inr rfl)).imp id Or.inl⟩
  · exact ⟨.inr (mkEdge_mem _ _ _ (.inl rfl)), .inr (mkEdge_mem _ _ _ (.inr rfl))⟩
  · exact ⟨(mkEdge_mem _ _ _ (.inl rfl)).imp id Or.inr, (mkEdge_mem _ _ _ (.inr rfl)).imp id Or.inr⟩

theorem side_apart {t : Triangle} (ht : t.Proper) {e : Edge} (h : e ∈ t.sides) : Apart e.b e.e := by
  simp only [Triangle.sides, Triangle.ab, Triangle.bc, Triangle.ac, List.mem_cons, List.not_mem_nil, or_false] at h
  rcases h with rfl | rfl | rfl
  exacts [mkEdge_apart ht.1, mkEdge_apart ht.2.1, mkEdge_apart ht.2.2]

theorem contains_inside {t : Triangle} {v : Vertex} {ox oy r2 : ℝ} (hc : Circumcircle t ox oy r2) (h : t.contains v) :
    dist2 ox oy v < r2 := by
  have h2 := ((C49_circumcircle t v ox oy r2 hc).mp h).2
  have heps : (0 : ℝ) < eps := by unfold eps; norm_num
  by_contra hn
  push Not at hn
  have := mul_nonneg (sq_nonneg (area2 t)) (sub_nonneg.mpr hn)
  linarith

theorem not_contains_outside {U : List Vertex} (hU : Distinct U) (hs : Sharp U) {t : Triangle} (ht : ∀ w ∈ t.corners, w ∈ U)
    (h0 : area2 t ≠ 0) {ox oy r2 : ℝ} (hc : Circumcircle t ox oy r2) {v : Vertex} (hv : v ∈ U) (h : ¬ t.contains v) :
    r2 ≤ dist2 ox oy v := by
  by_cases hcor : v ∈ t.corners
  · exact (circle_corner hc hcor).ge
  · rw [C49_circumcircle t v ox oy r2 hc] at h
    have hid : ∀ w ∈ t.corners, v.id ≠ w.id := by
      intro w hw hid
      have := (hU v hv w (ht w hw)).1 hid
      rw [this] at hcor
      exact hcor hw
    have hle := hs t ht ox oy r2 hc v hv
    rcases hle with hle | hgt
    · by_contra hlt
      push Not at hlt
      have : 0 < area2 t ^ 2 * (r2 - dist2 ox oy v) := mul_pos (by positivity) (by linarith)
      linarith
    · exact absurd ⟨⟨hid _ (by simp [Triangle.corners]), hid _ (by simp [Triangle.corners]), hid _ (by simp [Triangle.corners])⟩, hgt⟩ h

theorem del_step (s : Sorts) (hE : StdSort Edge.lt s.edges) {U : List Vertex} (hU : Distinct U) (hs : Sharp U) {t0 : Triangle}
    (hh : Hull U t0) {done : List Vertex} (hdone : ∀ w ∈ done, w ∈ U) (h0 : ∀ w ∈ t0.corners, w ∈ done) {ts : List Triangle}
    (h : Del U t0 done ts) {v : Vertex} (hv : v ∈ U) : Del U t0 (done ++ [v]) (insertVertex s ts v) := by
  classical
  have hts : ∀ t ∈ ts, ∀ w ∈ t.corners, w ∈ U := fun t ht w hw => hdone w (h.corners t ht w hw)
  refine ⟨?_, insert_proper s hE.perm ts h.proper v, ?_, fun φ => by rw [insert_bd s hE.perm hU hts h.proper, h.boundary]⟩
  · exact insert_corners s hE.perm (fun t ht w hw => by simp [h.corners t ht w hw]) (by simp)
  · intro t ht
    rw [C48_insertion s hE U hU ts hts v t] at ht
    rcases ht with ⟨ht, hn⟩ | ⟨e, rfl, hodd⟩
    · obtain ⟨ha, ox, oy, r2, hc, he⟩ := h.empty t ht
      refine ⟨ha, ox, oy, r2, hc, ?_⟩
      intro q hq
      rcases List.mem_append.mp hq with hq | hq
      · exact he q hq
      · rw [List.mem_singleton] at hq
        rw [hq]
        exact not_contains_outside hU hs (hts t ht) ha hc hv hn
    · -- a removed triangle
      have hb : bdAll (isEdge e) (ts.filter (fun t => t.contains v)) = 1 := by
        rw [isEdge_count]
        obtain ⟨k, hk⟩ := hodd
        rw [hk]; push_cast
        have h2 : (2 : ZMod 2) = 0 := by decide
        rw [h2]; ring
      obtain ⟨t1, ht1, he1⟩ := odd_mem (e := e) (ts := ts.filter (fun t => t.contains v)) (by rw [hb]; decide)
      obtain ⟨ht1, hcon⟩ := List.mem_filter.mp ht1
      have hcon : t1.contains v := by simpa using hcon
      obtain ⟨-, ox, oy, r, hc, he⟩ := h.empty t1 ht1
      have hin := contains_inside hc hcon
      obtain ⟨hb1, hb2⟩ := side_corner he1
      have hap := side_apart (h.proper t1 ht1) he1
      have hvd : v ∉ done := fun hvd => absurd hin (not_lt.mpr (he v hvd))
      by_cases hout : e ∈ t0.sides
      · obtain ⟨α, β, γ, l1, l2, l3, l4⟩ := hh e hout
        obtain ⟨g1, px, py, r', g2, g3⟩ := shifted_circle (circle_corner hc hb1) (circle_corner hc hb2) hin l1 l2
          (l4 v hv (fun hvc => hvd (h0 v hvc))) hap.2
        refine ⟨g1, px, py, r', g2, ?_⟩
        intro q hq
        rcases List.mem_append.mp hq with hq | hq
        · exact g3 q (he q hq) (l3 q (hdone q hq))
        · rw [List.mem_singleton] at hq
          rw [hq]
          exact g2.1.ge
      · have hgood : bdAll (isEdge e) (ts.filter (fun t => ¬ t.contains v)) = 1 := by
          have h1 := bdAll_split (isEdge e) (fun t => t.contains v) ts
          have h3 : bd (isEdge e) t0 = 0 := by
            simp only [Triangle.sides, List.mem_cons, List.not_mem_nil, or_false, not_or] at hout
            unfold bd isEdge
            rw [if_neg (Ne.symm hout.1), if_neg (Ne.symm hout.2.1), if_neg (Ne.symm hout.2.2)]
            rfl
          rw [h.boundary, h3, hb] at h1
          have h2 : (2 : ZMod 2) = 0 := by decide
          linear_combination -h1 - h2
        obtain ⟨t2, ht2, he2⟩ := odd_mem (e := e) (ts := ts.filter (fun t => ¬ t.contains v)) (by rw [hgood]; decide)
        obtain ⟨ht2, hncon⟩ := List.mem_filter.mp ht2
        have hncon : ¬ t2.contains v := by simpa using hncon
        obtain ⟨ha2, ox', oy', r2, hc2, hemp2⟩ := h.empty t2 ht2
        obtain ⟨hb3, hb4⟩ := side_corner he2
        have hge := not_contains_outside hU hs (hts t2 ht2) ha2 hc2 hv hncon
        obtain ⟨g1, px, py, r', g2, g3⟩ := pencil (circle_corner hc hb1) (circle_corner hc hb2) (circle_corner hc2 hb3)
          (circle_corner hc2 hb4) hin hge hap.2
        refine ⟨g1, px, py, r', g2, ?_⟩
        intro q hq
        rcases List.mem_append.mp hq with hq | hq
        · exact g3 q (he q hq) (hemp2 q hq)
        · rw [List.mem_singleton] at hq
          rw [hq]
          exact g2.1.ge

theorem del_run (s : Sorts) (hE : StdSort Edge.lt s.edges) {U : List Vertex} (hU : Distinct U) (hs : Sharp U) {t0 : Triangle}
    (hh : Hull U t0) (vs : List Vertex) (hvs : ∀ v ∈ vs, v ∈ U) {done : List Vertex} (hdone : ∀ w ∈ done, w ∈ U)
    (h0 : ∀ w ∈ t0.corners, w ∈ done) {ts : List Triangle} (h : Del U t0 done ts) :
    Del U t0 (done ++ vs) (vs.foldl (insertVertex s) ts) := by
  induction vs generalizing done ts with
  | nil => simpa using h
  | cons v vs ih =>
    rw [List.foldl_cons]
    have hv := hvs v (by simp)
    have := ih (fun w hw => hvs w (by simp [hw])) (done := done ++ [v])
      (fun w hw => by
        rcases List.mem_append.mp hw with hw | hw
        · exact hdone w hw
        · rw [List.mem_singleton] at hw; rw [hw]; exact hv)
      (fun w hw => by simp [h0 w hw]) (del_step s hE hU hs hh hdone h0 h hv)
    simpa using this

end Verif.Triang
