import Verif.Triang.DelaunayCover

/-!
# No triangle is there twice
-/

namespace Verif.Triang

/-- Two triangles with different sets of corners. -/
def Other (t u : Triangle) : Prop := ¬ t.corners.Perm u.corners

theorem other_symm {t u : Triangle} (h : Other t u) : Other u t := fun h' => h h'.symm

theorem cone_other {v : Vertex} {e f : Edge} (he : e.b.lt e.e) (hf : f.b.lt f.e) (h : e ≠ f) :
    Other ⟨v, e.b, e.e⟩ ⟨v, f.b, f.e⟩ := by
  intro hp
  simp only [Triangle.corners, List.perm_cons] at hp
  apply h
  obtain ⟨eb, ee⟩ := e
  obtain ⟨fb, fe⟩ := f
  dsimp only at *
  have h1 : eb ∈ [fb, fe] := hp.mem_iff.mp (by simp)
  simp only [List.mem_cons, List.not_mem_nil, or_false] at h1
  rcases h1 with rfl | rfl
  · have := (List.perm_cons eb).mp hp
    rw [List.perm_singleton] at this
    rw [(List.cons.inj this).1]
  · have h2 := (List.perm_cons eb).mp (hp.trans (List.Perm.swap _ _ _))
    rw [List.perm_singleton] at h2
    rw [(List.cons.inj h2).1] at he
    exact absurd (vlt_trans he hf) (vlt_irrefl _)

theorem fan_once {U : List Vertex} (hU : Distinct U) (v : Vertex) (es : List Edge) (hes : ∀ e ∈ es, e.In U)
    (hlt : ∀ e ∈ es, e.b.lt e.e) (hs : es.Pairwise (fun a b => ¬ b.lt a)) : (fan v es).Pairwise Other := by
  induction es using fan.induct with
  | case1 => simp [fan]
  | case2 e => simp [fan]
  | case3 e f es hef ih =>
    rw [fan, if_pos hef]
    exact ih (fun g hg => hes g (by simp [hg])) (fun g hg => hlt g (by simp [hg]))
      (List.pairwise_cons.mp (List.pairwise_cons.mp hs).2).2
  | case4 e f es hef ih =>
    rw [fan, if_neg hef, List.pairwise_cons]
    have hne : e ≠ f := by
      intro h; apply hef; rw [eqv_iff hU (hes e (by simp)) (hes f (by simp))]; exact h
    have hs' := List.pairwise_cons.mp hs
    refine ⟨?_, ih (fun g hg => hes g (List.mem_cons_of_mem _ hg)) (fun g hg => hlt g (List.mem_cons_of_mem _ hg)) hs'.2⟩
    intro t ht
    obtain ⟨h1, g, hg, h2, h3⟩ := fan_mem v _ t ht
    have ht' : t = ⟨v, g.b, g.e⟩ := by obtain ⟨a, b, c⟩ := t; simp only at h1 h2 h3; rw [h1, h2, h3]
    rw [ht']
    refine cone_other (hlt e (by simp)) (hlt g (List.mem_cons_of_mem _ hg)) ?_
    rintro rfl
    rcases List.mem_cons.mp hg with h | h
    · exact hne h
    · have h4 := (List.pairwise_cons.mp hs'.2).1 e h
      have h5 := hs'.1 f (by simp)
      rcases elt_total hU (hes e (by simp)) (hes f (by simp)) hne with h6 | h6
      · exact h4 h6
      · exact h5 h6

theorem side_lt {t : Triangle} (ht : t.Proper) {e : Edge} (h : e ∈ t.sides) : e.b.lt e.e := by
  have key : ∀ a b, Apart a b → (mkEdge a b).b.lt (mkEdge a b).e := by
    intro a b hab
    rcases mkEdge_cases hab with ⟨h1, h2⟩ | ⟨h1, h2⟩ <;> rw [h1] <;> exact h2
  simp only [Triangle.sides, Triangle.ab, Triangle.bc, Triangle.ac, List.mem_cons, List.not_mem_nil, or_false] at h
  rcases h with rfl | rfl | rfl
  exacts [key _ _ ht.1, key _ _ ht.2.1, key _ _ ht.2.2]

theorem scan_side (v : Vertex) (ts : List Triangle) (e : Edge) (h : e ∈ (scan v ts).2) : ∃ t ∈ ts, t.contains v ∧ e ∈ t.sides := by
  classical
  rw [scan_eq] at h
  obtain ⟨t, ht, he⟩ := List.mem_flatMap.mp h
  obtain ⟨h1, h2⟩ := List.mem_filter.mp ht
  exact ⟨t, h1, by simpa using h2, he⟩

theorem once_step (s : Sorts) (hE : StdSort Edge.lt s.edges) {U : List Vertex} (hU : Distinct U) {t0 : Triangle}
    {done : List Vertex} (hdone : ∀ w ∈ done, w ∈ U) {ts : List Triangle} (h : Del U t0 done ts) (ho : ts.Pairwise Other)
    (v : Vertex) : (insertVertex s ts v).Pairwise Other := by
  classical
  unfold insertVertex
  dsimp only
  rw [List.pairwise_append]
  have hside : ∀ e ∈ s.edges (scan v ts).2, ∃ t ∈ ts, t.contains v ∧ e ∈ t.sides :=
    fun e he => scan_side v ts e ((hE.perm _).mem_iff.mp he)
  refine ⟨?_, ?_, ?_⟩
  · rw [scan_eq]; exact ho.filter _
  · have hin : ∀ e ∈ s.edges (scan v ts).2, e.In U := by
      intro e he
      obtain ⟨t, ht, -, hs⟩ := hside e he
      have := side_corner hs
      exact ⟨hdone _ (h.corners t ht _ this.1), hdone _ (h.corners t ht _ this.2)⟩
    refine fan_once hU v _ hin ?_ (hE.sorted _ (edges_ordered hU (fun e he => hin e ((hE.perm _).mem_iff.mpr he))))
    · intro e he
      obtain ⟨t, ht, -, hs⟩ := hside e he
      exact side_lt (h.proper t ht) hs
  · intro t ht u hu hp
    obtain ⟨hu1, e, he, -, -⟩ := fan_mem v _ u hu
    obtain ⟨t1, ht1, hcon, -⟩ := hside e he
    obtain ⟨-, ox, oy, r, hc, hemp⟩ := h.empty t1 ht1
    have hvd : v ∉ done := fun hvd => absurd (contains_inside hc hcon) (not_lt.mpr (hemp v hvd))
    apply hvd
    have h2 := (scan_fst v ts t ht).1
    exact h.corners t h2 v (hp.mem_iff.mpr (by rw [← hu1]; simp [Triangle.corners]))

theorem once_run (s : Sorts) (hE : StdSort Edge.lt s.edges) {U : List Vertex} (hU : Distinct U) (hs : Sharp U) {t0 : Triangle}
    (hh : Hull U t0) (vs : List Vertex) (hvs : ∀ v ∈ vs, v ∈ U) {done : List Vertex} (hdone : ∀ w ∈ done, w ∈ U)
    (h0 : ∀ w ∈ t0.corners, w ∈ done) {ts : List Triangle} (h : Del U t0 done ts) (ho : ts.Pairwise Other) :
    (vs.foldl (insertVertex s) ts).Pairwise Other := by
  induction vs generalizing done ts with
  | nil => exact ho
  | cons v vs ih =>
    rw [List.foldl_cons]
    have hv := hvs v (by simp)
    exact ih (fun w hw => hvs w (by simp [hw])) (done := done ++ [v])
      (fun w hw => by
        rcases List.mem_append.mp hw with hw | hw
        · exact hdone w hw
        · rw [List.mem_singleton] at hw; rw [hw]; exact hv)
      (fun w hw => by simp [h0 w hw]) (del_step s hE hU hs hh hdone h0 h hv) (once_step s hE hU hdone h ho v)

theorem run_once {vs : List Vertex} {x1 x2 y1 y2 : ℝ} (hb : Box vs x1 x2 y1 y2) (s : Sorts) (hE : StdSort Edge.lt s.edges)
    (hd : Distinct vs) (hid : ∀ v ∈ vs, v.id ≠ "super1" ∧ v.id ≠ "super2" ∧ v.id ≠ "super3")
    (hs : Sharp (points vs x1 x2 y1 y2)) :
    ((points vs x1 x2 y1 y2).foldl (insertVertex s) [start x1 x2 y1 y2]).Pairwise Other := by
  have hU := points_distinct hb hd hid
  have hc : ∀ w ∈ (start x1 x2 y1 y2).corners, w ∈ points vs x1 x2 y1 y2 := fun w hw => List.mem_append.mpr (.inl hw)
  exact once_run s hE hU hs (start_hull hb) _ (fun v hv => hv) hc (fun w hw => hw) (start_del hb) (List.pairwise_singleton _ _)

end Verif.Triang
