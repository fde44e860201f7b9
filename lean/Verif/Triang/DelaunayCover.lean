import Verif.Triang.DelaunayRun
import Mathlib.Order.Interval.Set.Infinite

/-!
# Every place inside the starting triangle is covered
-/

namespace Verif.Triang

/-- Twice the signed area of `p q (x, y)`: positive if the place is to the left of the way from `p` to `q`. -/
def orient (p q : Vertex) (x y : ℝ) : ℝ := (q.x - p.x) * (y - p.y) - (x - p.x) * (q.y - p.y)

open Classical in
/-- Is the place strictly below the edge? -/
noncomputable def below (x y : ℝ) (e : Edge) : ZMod 2 :=
  if e.b.x < x ∧ x < e.e.x ∧ orient e.b e.e x y < 0 then 1 else 0

theorem mkEdge_swap {a b : Vertex} (h : Apart a b) : mkEdge b a = mkEdge a b := by
  rcases mkEdge_cases h with ⟨h1, h2⟩ | ⟨h1, h2⟩
  · rw [h1]
    have h3 : ¬ b.lt a := fun h3 => vlt_irrefl _ (vlt_trans h2 h3)
    unfold mkEdge; simp [h2, h3]
  · rw [h1]; exact mkEdge_of_lt h2

/-- The place is in the closed triangle. -/
def Inside (t : Triangle) (x y : ℝ) : Prop :=
  ∃ k l m : ℝ, 0 ≤ k ∧ 0 ≤ l ∧ 0 ≤ m ∧ k + l + m = 1 ∧ x = k * t.a.x + l * t.b.x + m * t.c.x ∧
    y = k * t.a.y + l * t.b.y + m * t.c.y

theorem below_of_lt {p q : Vertex} (h : p.x < q.x) (x y : ℝ) : open Classical in
    below x y (mkEdge p q) = if p.x < x ∧ x < q.x ∧ orient p q x y < 0 then 1 else 0 := by
  rw [mkEdge_of_lt (.inl h)]
  rfl

theorem below_out {p q : Vertex} (x y : ℝ) (h : p.x < x ∧ q.x < x ∨ x < p.x ∧ x < q.x) : below x y (mkEdge p q) = 0 := by
  unfold below
  rw [if_neg]
  rintro ⟨h1, h2, -⟩
  rcases mkEdge_mem p q _ (.inl rfl) with h3 | h3 <;> rcases mkEdge_mem p q _ (.inr rfl) with h4 | h4 <;>
    rw [h3] at h1 <;> rw [h4] at h2 <;> rcases h with h | h <;> linarith [h.1, h.2]

theorem inside_of_signs {t : Triangle} {x y : ℝ} {σ : ℝ} (h1 : 0 ≤ σ * orient t.b t.c x y) (h2 : 0 ≤ σ * orient t.c t.a x y)
    (h3 : 0 ≤ σ * orient t.a t.b x y) (h0 : σ * area2 t ≠ 0) : Inside t x y := by
  have hsum : orient t.b t.c x y + orient t.c t.a x y + orient t.a t.b x y = area2 t := by
    simp only [orient, area2]; ring
  have ha : area2 t ≠ 0 := right_ne_zero_of_mul h0
  have hpos : 0 < σ * area2 t := lt_of_le_of_ne (by rw [← hsum, mul_add, mul_add]; linarith) (Ne.symm h0)
  have hs : σ ≠ 0 := left_ne_zero_of_mul h0
  have q : ∀ z, z / area2 t = σ * z / (σ * area2 t) := fun z => by field_simp
  refine ⟨orient t.b t.c x y / area2 t, orient t.c t.a x y / area2 t, orient t.a t.b x y / area2 t, ?_, ?_, ?_, ?_, ?_, ?_⟩
  · rw [q]; exact div_nonneg h1 hpos.le
  · rw [q]; exact div_nonneg h2 hpos.le
  · rw [q]; exact div_nonneg h3 hpos.le
  · rw [← add_div, ← add_div, hsum, div_self ha]
  · field_simp; simp only [orient, area2]; ring
  · field_simp; simp only [orient, area2]; ring

theorem below_alone {t : Triangle} {x y : ℝ} (h : t.a.x < x ∧ x < t.b.x ∧ x < t.c.x ∨ x < t.a.x ∧ t.b.x < x ∧ t.c.x < x)
    (hp : t.Proper) (hb : bd (below x y) t ≠ 0) : Inside t x y := by
  classical
  have hid : orient t.b t.c x y * (t.a.x - x) + orient t.c t.a x y * (t.b.x - x) + orient t.a t.b x y * (t.c.x - x) = 0 := by
    simp only [orient]; ring
  have hsum : orient t.b t.c x y + orient t.c t.a x y + orient t.a t.b x y = area2 t := by
    simp only [orient, area2]; ring
  have hac : orient t.c t.a x y = -orient t.a t.c x y := by simp only [orient]; ring
  have hba : orient t.b t.a x y = -orient t.a t.b x y := by simp only [orient]; ring
  unfold bd Triangle.ab Triangle.bc Triangle.ac at hb
  -- one of the two sides at the corner is above, the other one is not
  have two : ∀ (u v w α β γ : ℝ), α * u + β * v + γ * w = 0 → u < 0 → 0 < v → 0 < w → 0 ≤ β → 0 ≤ γ → 0 < β + γ →
      0 < α := by
    intro u v w α β γ h hu hv hw hβ hγ hs
    have h1 := mul_nonneg hβ hv.le
    have h2 := mul_nonneg hγ hw.le
    have h3 : 0 < β * v + γ * w := by
      rcases hβ.lt_or_eq with h | h
      · have := mul_pos h hv; linarith
      · have := mul_pos (show 0 < γ by linarith) hw; linarith
    by_contra hn
    push Not at hn
    have := mul_nonneg_of_nonpos_of_nonpos hn hu.le
    linarith
  rcases h with ⟨h1, h2, h3⟩ | ⟨h1, h2, h3⟩
  · rw [below_of_lt (h1.trans h2), below_out x y (.inr ⟨h2, h3⟩), below_of_lt (h1.trans h3)] at hb
    by_cases c1 : orient t.a t.b x y < 0
    · by_cases c2 : orient t.a t.c x y < 0
      · rw [if_pos ⟨h1, h2, c1⟩, if_pos ⟨h1, h3, c2⟩] at hb
        exact absurd (by decide) hb
      · have c3 : 0 < -orient t.b t.c x y := two (t.a.x - x) (t.b.x - x) (t.c.x - x) _ (-orient t.c t.a x y) (-orient t.a t.b x y)
          (by linear_combination -hid) (by linarith) (by linarith) (by linarith) (by linarith) (by linarith) (by linarith)
        exact inside_of_signs (σ := -1) (by linarith) (by linarith) (by linarith) (by intro h; linarith)
    · by_cases c2 : orient t.a t.c x y < 0
      · have c3 : 0 < orient t.b t.c x y := two (t.a.x - x) (t.b.x - x) (t.c.x - x) _ (orient t.c t.a x y) (orient t.a t.b x y)
          (by linear_combination hid) (by linarith) (by linarith) (by linarith) (by linarith) (by linarith) (by linarith)
        exact inside_of_signs (σ := 1) (by linarith) (by linarith) (by linarith) (by intro h; linarith)
      · rw [if_neg (fun h => c1 h.2.2), if_neg (fun h => c2 h.2.2)] at hb
        exact absurd (by decide) hb
  · rw [← mkEdge_swap hp.1, ← mkEdge_swap hp.2.2, below_of_lt (h2.trans h1), below_out x y (.inl ⟨h2, h3⟩),
      below_of_lt (h3.trans h1)] at hb
    have hca : orient t.c t.a x y = -orient t.a t.c x y := hac
    by_cases c1 : orient t.b t.a x y < 0
    · by_cases c2 : orient t.c t.a x y < 0
      · rw [if_pos ⟨h2, h1, c1⟩, if_pos ⟨h3, h1, c2⟩] at hb
        exact absurd (by decide) hb
      · have c3 : 0 < orient t.b t.c x y := two (x - t.a.x) (x - t.b.x) (x - t.c.x) _ (orient t.c t.a x y) (orient t.a t.b x y)
          (by linear_combination -hid) (by linarith) (by linarith) (by linarith) (by linarith) (by linarith) (by linarith)
        exact inside_of_signs (σ := 1) (by linarith) (by linarith) (by linarith) (by intro h; linarith)
    · by_cases c2 : orient t.c t.a x y < 0
      · have c3 : 0 < -orient t.b t.c x y := two (x - t.a.x) (x - t.b.x) (x - t.c.x) _ (-orient t.c t.a x y) (-orient t.a t.b x y)
          (by linear_combination hid) (by linarith) (by linarith) (by linarith) (by linarith) (by linarith) (by linarith)
        exact inside_of_signs (σ := -1) (by linarith) (by linarith) (by linarith) (by intro h; linarith)
      · rw [if_neg (fun h => c1 h.2.2), if_neg (fun h => c2 h.2.2)] at hb
        exact absurd (by decide) hb

theorem below_inside {t : Triangle} {x y : ℝ} (hx : ∀ w ∈ t.corners, w.x ≠ x) (hp : t.Proper) (hb : bd (below x y) t ≠ 0) :
    Inside t x y := by
  have ha := hx t.a (by simp [Triangle.corners])
  have hbx := hx t.b (by simp [Triangle.corners])
  have hc := hx t.c (by simp [Triangle.corners])
  have symm : ∀ u w, Apart u w → Apart w u := fun u w h => ⟨Ne.symm h.1, h.2.imp Ne.symm Ne.symm⟩
  -- the triangle with `b` first, and with `c` first
  have hB : Inside ⟨t.b, t.a, t.c⟩ x y → Inside t x y := by
    rintro ⟨k, l, m, h1, h2, h3, h4, h5, h6⟩
    exact ⟨l, k, m, h2, h1, h3, by linarith, by rw [h5]; ring, by rw [h6]; ring⟩
  have hC : Inside ⟨t.c, t.a, t.b⟩ x y → Inside t x y := by
    rintro ⟨k, l, m, h1, h2, h3, h4, h5, h6⟩
    exact ⟨l, m, k, h2, h3, h1, by linarith, by rw [h5]; ring, by rw [h6]; ring⟩
  have eB : bd (below x y) ⟨t.b, t.a, t.c⟩ = bd (below x y) t := by
    unfold bd Triangle.ab Triangle.bc Triangle.ac
    dsimp only
    rw [mkEdge_swap hp.1]; ring
  have eC : bd (below x y) ⟨t.c, t.a, t.b⟩ = bd (below x y) t := by
    unfold bd Triangle.ab Triangle.bc Triangle.ac
    dsimp only
    rw [mkEdge_swap hp.2.2, mkEdge_swap hp.2.1]; ring
  have pB : Triangle.Proper ⟨t.b, t.a, t.c⟩ := ⟨symm _ _ hp.1, hp.2.2, hp.2.1⟩
  have pC : Triangle.Proper ⟨t.c, t.a, t.b⟩ := ⟨symm _ _ hp.2.2, hp.1, symm _ _ hp.2.1⟩
  have zero : (t.a.x < x ∧ t.b.x < x ∧ t.c.x < x ∨ x < t.a.x ∧ x < t.b.x ∧ x < t.c.x) → bd (below x y) t = 0 := by
    intro h
    unfold bd Triangle.ab Triangle.bc Triangle.ac
    rw [below_out x y (h.imp (fun h => ⟨h.1, h.2.1⟩) (fun h => ⟨h.1, h.2.1⟩)),
      below_out x y (h.imp (fun h => ⟨h.2.1, h.2.2⟩) (fun h => ⟨h.2.1, h.2.2⟩)),
      below_out x y (h.imp (fun h => ⟨h.1, h.2.2⟩) (fun h => ⟨h.1, h.2.2⟩))]
    rfl
  rcases lt_or_gt_of_ne ha with h1 | h1 <;> rcases lt_or_gt_of_ne hbx with h2 | h2 <;> rcases lt_or_gt_of_ne hc with h3 | h3
  · exact absurd (zero (.inl ⟨h1, h2, h3⟩)) hb
  · exact hC (below_alone (.inr ⟨h3, h1, h2⟩) pC (by rw [eC]; exact hb))
  · exact hB (below_alone (.inr ⟨h2, h1, h3⟩) pB (by rw [eB]; exact hb))
  · exact below_alone (.inl ⟨h1, h2, h3⟩) hp hb
  · exact below_alone (.inr ⟨h1, h2, h3⟩) hp hb
  · exact hB (below_alone (.inl ⟨h2, h1, h3⟩) pB (by rw [eB]; exact hb))
  · exact hC (below_alone (.inl ⟨h3, h1, h2⟩) pC (by rw [eC]; exact hb))
  · exact absurd (zero (.inr ⟨h1, h2, h3⟩)) hb

theorem start_below {x1 x2 y1 y2 x y : ℝ} (_hx : x1 < x2) (_hy : y1 < y2) (hne : x ≠ (x1 + x2) / 2) (h1 : y1 < y)
    (h2 : y < x + y2 - x1) (h3 : y < x2 + y2 - x) : bd (below x y) (start x1 x2 y1 y2) = 1 := by
  classical
  unfold bd Triangle.ab Triangle.bc Triangle.ac start
  dsimp only
  have e1 : (corner1 x1 y1 y2).x < (corner2 x2 y1 y2).x := by simp only [corner1, corner2]; linarith
  have e2 : (corner3 x1 x2 y2).x < (corner2 x2 y1 y2).x := by simp only [corner3, corner2]; linarith
  have e3 : (corner1 x1 y1 y2).x < (corner3 x1 x2 y2).x := by simp only [corner1, corner3]; linarith
  have ap : Apart (corner3 x1 x2 y2) (corner2 x2 y1 y2) := ⟨by simp [corner3, corner2], .inl e2.ne⟩
  rw [mkEdge_swap ap, below_of_lt e1, below_of_lt e2, below_of_lt e3]
  have o1 : ¬ orient (corner1 x1 y1 y2) (corner2 x2 y1 y2) x y < 0 := by
    have : orient (corner1 x1 y1 y2) (corner2 x2 y1 y2) x y = (x2 + y2 - y1 - (x1 + y1 - y2)) * (y - y1) := by
      simp only [orient, corner1, corner2]; ring
    rw [this, not_lt]
    exact mul_nonneg (by linarith) (by linarith)
  rw [if_neg (fun h => o1 h.2.2)]
  rcases lt_or_gt_of_ne hne with hlt | hgt
  · rw [if_neg (fun h => by simp only [corner3] at h; linarith [h.1]), if_pos]
    · rfl
    · refine ⟨by simp only [corner1]; linarith, by simp only [corner3]; linarith, ?_⟩
      have : orient (corner1 x1 y1 y2) (corner3 x1 x2 y2) x y = ((x2 - x1) / 2 + (y2 - y1)) * (y - (x + y2 - x1)) := by
        simp only [orient, corner1, corner3]; ring
      rw [this]
      exact mul_neg_of_pos_of_neg (by linarith) (by linarith)
  · rw [if_neg (c := (corner1 x1 y1 y2).x < x ∧ x < (corner3 x1 x2 y2).x ∧ _)
      (fun h => by simp only [corner3] at h; linarith [h.2.1]), if_pos]
    · rfl
    · refine ⟨by simp only [corner3]; linarith, by simp only [corner2]; linarith, ?_⟩
      have : orient (corner3 x1 x2 y2) (corner2 x2 y1 y2) x y = ((x2 - x1) / 2 + (y2 - y1)) * (y - (x2 + y2 - x)) := by
        simp only [orient, corner2, corner3]; ring
      rw [this]
      exact mul_neg_of_pos_of_neg (by linarith) (by linarith)

/-- Some triangle covers the place. -/
theorem covered {ts : List Triangle} {t0 : Triangle} {x y : ℝ} (hp : ∀ t ∈ ts, t.Proper)
    (hb : bdAll (below x y) ts = bd (below x y) t0) (h0 : bd (below x y) t0 = 1)
    (hx : ∀ t ∈ ts, ∀ w ∈ t.corners, w.x ≠ x) : ∃ t ∈ ts, Inside t x y := by
  by_contra hn
  push Not at hn
  have : bdAll (below x y) ts = 0 := by
    unfold bdAll
    apply List.sum_eq_zero
    intro z hz
    obtain ⟨t, ht, rfl⟩ := List.mem_map.mp hz
    by_contra hne
    exact hn t ht (below_inside (hx t ht) (hp t ht) hne)
  rw [hb, h0] at this
  exact absurd this (by decide)

/-- A place strictly inside a triangle whose first coordinate is none of finitely many values. -/
theorem generic_inside (t : Triangle) (h : area2 t ≠ 0) (S : Finset ℝ) : ∃ k l m : ℝ, 0 < k ∧ 0 < l ∧ 0 < m ∧ k + l + m = 1 ∧
    k * t.a.x + l * t.b.x + m * t.c.x ∉ S := by
  have hinf : (Set.Ioo (0 : ℝ) (1 / 3)).Infinite := Set.Ioo_infinite (by norm_num)
  by_cases hb : t.b.x = t.a.x
  · have hc : t.c.x - t.a.x ≠ 0 := by
      intro hc; apply h; simp only [area2]; rw [hb, hc]; ring
    obtain ⟨s, hs, hn⟩ := hinf.exists_notMem_finset (S.image (fun z => (z - (t.a.x + t.b.x + t.c.x) / 3) / (t.c.x - t.a.x)))
    refine ⟨1 / 3 - s, 1 / 3, 1 / 3 + s, by linarith [hs.2], by norm_num, by linarith [hs.1], by ring, ?_⟩
    intro hS
    apply hn
    rw [Finset.mem_image]
    exact ⟨_, hS, by field_simp; ring⟩
  · have hb' : t.b.x - t.a.x ≠ 0 := sub_ne_zero.mpr hb
    obtain ⟨s, hs, hn⟩ := hinf.exists_notMem_finset (S.image (fun z => (z - (t.a.x + t.b.x + t.c.x) / 3) / (t.b.x - t.a.x)))
    refine ⟨1 / 3 - s, 1 / 3 + s, 1 / 3, by linarith [hs.2], by linarith [hs.1], by norm_num, by ring, ?_⟩
    intro hS
    apply hn
    rw [Finset.mem_image]
    exact ⟨_, hS, by field_simp; ring⟩

/-- An affine function that vanishes at the corners of a triangle vanishes. -/
theorem aff_zero {α β γ : ℝ} {t : Triangle} (h : area2 t ≠ 0) (ha : aff α β γ t.a = 0) (hb : aff α β γ t.b = 0)
    (hc : aff α β γ t.c = 0) (q : Vertex) : aff α β γ q = 0 := by
  have key : area2 t * aff α β γ q = 0 := by
    simp only [aff, area2] at *
    linear_combination
      ((t.b.x - q.x) * (t.c.y - q.y) - (t.c.x - q.x) * (t.b.y - q.y)) * ha +
      ((t.c.x - q.x) * (t.a.y - q.y) - (t.a.x - q.x) * (t.c.y - q.y)) * hb +
      ((t.a.x - q.x) * (t.b.y - q.y) - (t.b.x - q.x) * (t.a.y - q.y)) * hc
  exact (mul_eq_zero.mp key).resolve_left h

/-- Two empty circles whose triangles share a place strictly inside the first one: the circles are the same. -/
theorem same_circle {t t' : Triangle} {ox oy r ox' oy' r' : ℝ} (h0 : area2 t ≠ 0) (hc : Circumcircle t ox oy r)
    (hc' : Circumcircle t' ox' oy' r') (he : ∀ w ∈ t'.corners, r ≤ dist2 ox oy w) (he' : ∀ w ∈ t.corners, r' ≤ dist2 ox' oy' w)
    {k l m : ℝ} (hk : 0 < k) (hl : 0 < l) (hm : 0 < m) (hs : k + l + m = 1)
    (hin : Inside t' (k * t.a.x + l * t.b.x + m * t.c.x) (k * t.a.y + l * t.b.y + m * t.c.y)) (q : Vertex) :
    dist2 ox oy q - r = dist2 ox' oy' q - r' := by
  have hd : ∀ q, aff (2 * (ox' - ox)) (2 * (oy' - oy)) (ox ^ 2 + oy ^ 2 - r - (ox' ^ 2 + oy' ^ 2 - r')) q =
      (dist2 ox oy q - r) - (dist2 ox' oy' q - r') := by
    intro q; simp only [aff, dist2]; ring
  obtain ⟨k', l', m', hk', hl', hm', hs', hx, hy⟩ := hin
  set α := 2 * (ox' - ox)
  set β := 2 * (oy' - oy)
  set γ := ox ^ 2 + oy ^ 2 - r - (ox' ^ 2 + oy' ^ 2 - r')
  have e : k * aff α β γ t.a + l * aff α β γ t.b + m * aff α β γ t.c =
      k' * aff α β γ t'.a + l' * aff α β γ t'.b + m' * aff α β γ t'.c := by
    simp only [aff]
    linear_combination α * hx + β * hy + γ * hs - γ * hs'
  have p1 : aff α β γ t.a ≤ 0 := by
    rw [hd, hc.1]; have := he' t.a (by simp [Triangle.corners]); linarith
  have p2 : aff α β γ t.b ≤ 0 := by
    rw [hd, hc.2.1]; have := he' t.b (by simp [Triangle.corners]); linarith
  have p3 : aff α β γ t.c ≤ 0 := by
    rw [hd, hc.2.2]; have := he' t.c (by simp [Triangle.corners]); linarith
  have q1 : 0 ≤ aff α β γ t'.a := by
    rw [hd, hc'.1]; have := he t'.a (by simp [Triangle.corners]); linarith
  have q2 : 0 ≤ aff α β γ t'.b := by
    rw [hd, hc'.2.1]; have := he t'.b (by simp [Triangle.corners]); linarith
  have q3 : 0 ≤ aff α β γ t'.c := by
    rw [hd, hc'.2.2]; have := he t'.c (by simp [Triangle.corners]); linarith
  have n1 := mul_nonneg hk' q1
  have n2 := mul_nonneg hl' q2
  have n3 := mul_nonneg hm' q3
  have u1 := mul_nonneg hk.le (neg_nonneg.mpr p1)
  have u2 := mul_nonneg hl.le (neg_nonneg.mpr p2)
  have u3 := mul_nonneg hm.le (neg_nonneg.mpr p3)
  have z1 : aff α β γ t.a = 0 := (mul_eq_zero.mp (show k * aff α β γ t.a = 0 by linarith)).resolve_left hk.ne'
  have z2 : aff α β γ t.b = 0 := (mul_eq_zero.mp (show l * aff α β γ t.b = 0 by linarith)).resolve_left hl.ne'
  have z3 : aff α β γ t.c = 0 := (mul_eq_zero.mp (show m * aff α β γ t.c = 0 by linarith)).resolve_left hm.ne'
  have := aff_zero h0 z1 z2 z3 q
  rw [hd] at this
  linarith

end Verif.Triang
