import Verif.Triang.DelaunayProps

/-!
# C95: the triangulation is a function of the vertices

The two `std::sort` calls of the triangulation leave open what happens to equal elements.  Here: with distinct vertices there
are no equal elements that differ, so every correct sort gives the same result, and the triangles are listed from left to right.
-/

namespace Verif.Triang

/-- `p` is left of `q`, or exactly below it. -/
def LeftOf (p q : Vertex) : Prop := p.x < q.x ∨ (p.x = q.x ∧ p.y < q.y)

/-- `t` is listed before `u`: the first corner in which they differ is more to the left in `t`. -/
def ListedBefore (t u : Triangle) : Prop :=
  LeftOf t.a u.a ∨ (t.a = u.a ∧ (LeftOf t.b u.b ∨ (t.b = u.b ∧ LeftOf t.c u.c)))

/-! ## Lemmas -/

/-- The place of a vertex, as a key. -/
noncomputable def place (v : Vertex) : ℝ ×ₗ ℝ := toLex (v.x, v.y)

theorem lt_place (a b : Vertex) : a.lt b ↔ place a < place b := by
  unfold Vertex.lt place
  rw [Prod.Lex.toLex_lt_toLex]

theorem place_inj {U : List Vertex} (hU : Distinct U) {a b : Vertex} (ha : a ∈ U) (hb : b ∈ U) : place a = place b ↔ a = b := by
  constructor
  · intro h
    have := congrArg ofLex h
    simp only [place, ofLex_toLex, Prod.mk.injEq] at this
    exact (hU a ha b hb).2 this.1 this.2
  · rintro rfl; rfl

theorem eqv_place {U : List Vertex} (hU : Distinct U) {a b : Vertex} (ha : a ∈ U) (hb : b ∈ U) :
    a.eqv b = true ↔ a = b := by
  unfold Vertex.eqv
  rw [beq_iff_eq]
  exact ⟨(hU a ha b hb).1, fun h => by rw [h]⟩

theorem tlt_iff {U : List Vertex} (hU : Distinct U) {t u : Triangle} (ht : ∀ w ∈ t.corners, w ∈ U) (hu : ∀ w ∈ u.corners, w ∈ U) :
    t.lt u ↔ ListedBefore t u := by
  have c : ∀ t : Triangle, t.a ∈ t.corners ∧ t.b ∈ t.corners ∧ t.c ∈ t.corners := by intro t; simp [Triangle.corners]
  unfold Triangle.lt ListedBefore
  rw [eqv_place hU (ht _ (c t).1) (hu _ (c u).1), eqv_place hU (ht _ (c t).2.1) (hu _ (c u).2.1)]
  unfold LeftOf Vertex.lt
  tauto

theorem tlt_total {U : List Vertex} (hU : Distinct U) {t u : Triangle} (ht : ∀ w ∈ t.corners, w ∈ U) (hu : ∀ w ∈ u.corners, w ∈ U)
    (h : t ≠ u) : ListedBefore t u ∨ ListedBefore u t := by
  have c : ∀ t : Triangle, t.a ∈ t.corners ∧ t.b ∈ t.corners ∧ t.c ∈ t.corners := by intro t; simp [Triangle.corners]
  by_cases h1 : t.a = u.a
  · by_cases h2 : t.b = u.b
    · have h3 : t.c ≠ u.c := by intro h3; apply h; cases t; cases u; simp_all
      rcases vlt_total hU (ht _ (c t).2.2) (hu _ (c u).2.2) h3 with k | k
      · exact .inl (.inr ⟨h1, .inr ⟨h2, k⟩⟩)
      · exact .inr (.inr ⟨h1.symm, .inr ⟨h2.symm, k⟩⟩)
    · rcases vlt_total hU (ht _ (c t).2.1) (hu _ (c u).2.1) h2 with k | k
      · exact .inl (.inr ⟨h1, .inl k⟩)
      · exact .inr (.inr ⟨h1.symm, .inl k⟩)
  · rcases vlt_total hU (ht _ (c t).1) (hu _ (c u).1) h1 with k | k
    · exact .inl (.inl k)
    · exact .inr (.inl k)

theorem triangles_ordered {U : List Vertex} (hU : Distinct U) {ts : List Triangle} (h : ∀ t ∈ ts, ∀ w ∈ t.corners, w ∈ U) :
    Orders Triangle.lt ts := by
  refine orders_of_key (fun t => toLex (place t.a, toLex (place t.b, place t.c))) ?_
  intro t ht u hu
  have c : ∀ t : Triangle, t.a ∈ t.corners ∧ t.b ∈ t.corners ∧ t.c ∈ t.corners := by intro t; simp [Triangle.corners]
  rw [Prod.Lex.toLex_lt_toLex, Prod.Lex.toLex_lt_toLex, place_inj hU (h t ht _ (c t).1) (h u hu _ (c u).1),
    place_inj hU (h t ht _ (c t).2.1) (h u hu _ (c u).2.1), ← lt_place, ← lt_place, ← lt_place, tlt_iff hU (h t ht) (h u hu)]
  rfl

theorem sorted_unique {α : Type*} {lt : α → α → Prop} {s s' : List α → List α} (hs : StdSort lt s) (hs' : StdSort lt s')
    {l : List α} (ho : Orders lt l) (ht : ∀ a ∈ l, ∀ b ∈ l, a ≠ b → lt a b ∨ lt b a) : s l = s' l := by
  refine List.Perm.eq_of_pairwise (le := fun a b => ¬ lt b a) ?_ (hs.sorted l ho) (hs'.sorted l ho) ((hs.perm l).trans (hs'.perm l).symm)
  intro a b ha hb h1 h2
  by_contra hne
  rcases ht a ((hs.perm l).mem_iff.mp ha) b ((hs'.perm l).mem_iff.mp hb) hne with h | h
  · exact h2 h
  · exact h1 h

theorem scan_in {U : List Vertex} {ts : List Triangle} (h : ∀ t ∈ ts, ∀ w ∈ t.corners, w ∈ U) (v : Vertex) :
    ∀ e ∈ (scan v ts).2, e.In U := by
  intro e he
  obtain ⟨t, ht, h1, h2⟩ := scan_snd v ts e he
  exact ⟨h t ht _ h1, h t ht _ h2⟩

theorem insert_in {U : List Vertex} (s : Sorts) (hE : StdSort Edge.lt s.edges) {ts : List Triangle}
    (h : ∀ t ∈ ts, ∀ w ∈ t.corners, w ∈ U) {v : Vertex} (hv : v ∈ U) : ∀ t ∈ insertVertex s ts v, ∀ w ∈ t.corners, w ∈ U := by
  intro t ht w hw
  unfold insertVertex at ht
  rcases List.mem_append.mp ht with ht | ht
  · exact h t (scan_fst v ts t ht).1 w hw
  · obtain ⟨h1, e, he, h2, h3⟩ := fan_mem v _ t ht
    have hin := scan_in h v e ((hE.perm _).mem_iff.mp he)
    simp only [Triangle.corners, List.mem_cons, List.not_mem_nil, or_false] at hw
    rcases hw with rfl | rfl | rfl
    · rw [h1]; exact hv
    · rw [h2]; exact hin.1
    · rw [h3]; exact hin.2

theorem run_unique {U : List Vertex} (hU : Distinct U) {s s' : Sorts} (hE : StdSort Edge.lt s.edges) (hE' : StdSort Edge.lt s'.edges)
    (vs : List Vertex) (hvs : ∀ v ∈ vs, v ∈ U) (ts : List Triangle) (h : ∀ t ∈ ts, ∀ w ∈ t.corners, w ∈ U) :
    vs.foldl (insertVertex s) ts = vs.foldl (insertVertex s') ts ∧
    ∀ t ∈ vs.foldl (insertVertex s) ts, ∀ w ∈ t.corners, w ∈ U := by
  induction vs generalizing ts with
  | nil => exact ⟨rfl, h⟩
  | cons v vs ih =>
    have e : insertVertex s ts v = insertVertex s' ts v := by
      unfold insertVertex
      dsimp only
      rw [sorted_unique hE hE' (edges_ordered hU (scan_in h v))
        (fun a ha b hb hne => elt_total hU (scan_in h v a ha) (scan_in h v b hb) hne)]
    have hi := ih (fun w hw => hvs w (by simp [hw])) _ (insert_in s hE h (hvs v (by simp)))
    rw [List.foldl_cons, List.foldl_cons, ← e]
    exact hi

/-! ## The properties -/

/-- **C95.** The result does not depend on how `std::sort` treats equal elements: for vertices that differ in id and place, any
two correct sorts give the same list of triangles. -/
theorem C95_unique (s s' : Sorts) (hE : StdSort Edge.lt s.edges) (hE' : StdSort Edge.lt s'.edges)
    (hT : StdSort Triangle.lt s.triangles) (hT' : StdSort Triangle.lt s'.triangles) (vertices : List Vertex)
    (hd : Distinct vertices) (hid : ∀ v ∈ vertices, v.id ≠ "super1" ∧ v.id ≠ "super2" ∧ v.id ≠ "super3") (maxedge : ℝ) :
    triangulateVertices s vertices maxedge = triangulateVertices s' vertices maxedge := by
  by_cases h3 : 3 ≤ vertices.length
  swap
  · rw [result_nil s h3, result_nil s' h3]
  cases vertices with
  | nil => simp at h3
  | cons v0 vs =>
    obtain ⟨x1, x2, y1, y2, hb, hsv⟩ := super_box v0 vs
    have hU := points_distinct hb hd hid
    have hc : ∀ t ∈ [start x1 x2 y1 y2], ∀ w ∈ t.corners, w ∈ points (v0 :: vs) x1 x2 y1 y2 := by
      intro t ht w hw
      rw [List.mem_singleton] at ht
      subst ht
      exact List.mem_append.mpr (.inl hw)
    obtain ⟨h1, h2⟩ := run_unique hU hE hE' (points (v0 :: vs) x1 x2 y1 y2) (fun v hv => hv) _ hc
    unfold triangulateVertices
    rw [if_neg (by omega), if_neg (by omega)]
    simp only [hsv]
    change s.triangles (((points (v0 :: vs) x1 x2 y1 y2).foldl (insertVertex s) [start x1 x2 y1 y2]).filter _) =
      s'.triangles (((points (v0 :: vs) x1 x2 y1 y2).foldl (insertVertex s') [start x1 x2 y1 y2]).filter _)
    rw [← h1]
    have hin : ∀ t ∈ ((points (v0 :: vs) x1 x2 y1 y2).foldl (insertVertex s) [start x1 x2 y1 y2]).filter
        (fun t => !dropped (corner1 x1 y1 y2) (corner2 x2 y1 y2) (corner3 x1 x2 y2) maxedge t), ∀ w ∈ t.corners,
        w ∈ points (v0 :: vs) x1 x2 y1 y2 := fun t ht => h2 t (List.mem_filter.mp ht).1
    refine sorted_unique hT hT' (triangles_ordered hU hin) ?_
    intro t ht u hu hne
    rw [tlt_iff hU (hin t ht) (hin u hu), tlt_iff hU (hin u hu) (hin t ht)]
    exact tlt_total hU (hin t ht) (hin u hu) hne

/-- **C95.** The triangles are returned in the order of their corners, from left to right. -/
theorem C95_order (s : Sorts) (hE : StdSort Edge.lt s.edges) (hT : StdSort Triangle.lt s.triangles) (vertices : List Vertex)
    (h : Input vertices) (maxedge : ℝ) : (triangulateVertices s vertices maxedge).Pairwise ListedBefore := by
  by_cases h3 : 3 ≤ vertices.length
  swap
  · rw [result_nil s h3]; exact List.Pairwise.nil
  have hin : ∀ t ∈ triangulateVertices s vertices maxedge, ∀ w ∈ t.corners, w ∈ vertices :=
    fun t ht => (C95_delaunay s hE hT.perm vertices h maxedge t ht).2.1
  have ho := C95_once s hE hT.perm vertices h maxedge
  have hs : (triangulateVertices s vertices maxedge).Pairwise (fun t u => ¬ u.lt t) := by
    cases vertices with
    | nil => simp at h3
    | cons v0 vs =>
      obtain ⟨x1, x2, y1, y2, hb, hsv⟩ := super_box v0 vs
      have hU := points_distinct hb h.distinct h.ids
      have hc : ∀ t ∈ [start x1 x2 y1 y2], ∀ w ∈ t.corners, w ∈ points (v0 :: vs) x1 x2 y1 y2 := by
        intro t ht w hw
        rw [List.mem_singleton] at ht
        subst ht
        exact List.mem_append.mpr (.inl hw)
      obtain ⟨-, h2⟩ := run_unique hU hE hE (points (v0 :: vs) x1 x2 y1 y2) (fun v hv => hv) _ hc
      unfold triangulateVertices
      rw [if_neg (by omega)]
      simp only [hsv]
      exact hT.sorted _ (triangles_ordered hU (fun t ht => h2 t (List.mem_filter.mp ht).1))
  refine List.Pairwise.imp_of_mem ?_ (List.Pairwise.and hs ho)
  rintro t u ht hu ⟨h1, h2⟩
  rw [tlt_iff h.distinct (hin u hu) (hin t ht)] at h1
  exact (tlt_total h.distinct (hin t ht) (hin u hu) (by rintro rfl; exact h2 (List.Perm.refl _))).resolve_right h1

end Verif.Triang

namespace Verif.Triang.Example

/-- Four points meet the hypotheses, sorts exist, and there is something to sort. -/
example : ∃ s : Sorts, StdSort Edge.lt s.edges ∧ StdSort Triangle.lt s.triangles ∧ Input [pa, pb, pc, pd] ∧
    (⟨pc, pa, pb⟩ : Triangle) ∈ triangulateVertices s [pa, pb, pc, pd] 6 ∧
    (triangulateVertices s [pa, pb, pc, pd] 6).Pairwise ListedBefore ∧
    ∀ s' : Sorts, StdSort Edge.lt s'.edges → StdSort Triangle.lt s'.triangles →
      triangulateVertices s' [pa, pb, pc, pd] 6 = triangulateVertices s [pa, pb, pc, pd] 6 := by
  obtain ⟨e, he⟩ := stdSort_exists Edge.lt
  obtain ⟨t, ht⟩ := stdSort_exists Triangle.lt
  exact ⟨⟨e, t⟩, he, ht, input, triangulation _ he ht.perm, C95_order _ he ht _ input 6,
    fun s' he' ht' => C95_unique _ _ he' he ht' ht _ input.distinct input.ids 6⟩

end Verif.Triang.Example
