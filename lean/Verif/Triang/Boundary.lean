import Verif.Triang.Props
import Mathlib.Data.ZMod.Basic
import Mathlib.Algebra.CharP.Two

/-!
# The boundary of the triangles does not change modulo two
-/

namespace Verif.Triang

open Verif.Geometry (det3 eps)

/-- The sum of `φ` over the sides of a triangle. -/
noncomputable def bd (φ : Edge → ZMod 2) (t : Triangle) : ZMod 2 := φ t.ab + φ t.bc + φ t.ac

/-- The sum of `φ` over all sides of all triangles. -/
noncomputable def bdAll (φ : Edge → ZMod 2) (ts : List Triangle) : ZMod 2 := (ts.map (bd φ)).sum

theorem mkEdge_cases {a b : Vertex} (h : Apart a b) : mkEdge a b = ⟨a, b⟩ ∧ a.lt b ∨ mkEdge a b = ⟨b, a⟩ ∧ b.lt a := by
  unfold mkEdge
  by_cases h1 : a.lt b
  · have h2 : ¬ b.lt a := fun h2 => vlt_irrefl _ (vlt_trans h1 h2)
    left; simp [h1, h2]
  · have h2 : b.lt a := by
      unfold Vertex.lt at *
      push Not at h1
      rcases lt_or_eq_of_le h1.1 with h3 | h3
      · exact .inl h3
      · refine .inr ⟨h3, lt_of_le_of_ne (h1.2 h3.symm) ?_⟩
        rcases h.2 with h4 | h4
        · exact absurd h3.symm h4
        · exact fun h5 => h4 h5.symm
    right; simp [h1, h2]

theorem mkEdge_of_lt {a b : Vertex} (h : a.lt b) : mkEdge a b = ⟨a, b⟩ := by
  have h2 : ¬ b.lt a := fun h2 => vlt_irrefl _ (vlt_trans h h2)
  unfold mkEdge
  simp [h, h2]

theorem mkEdge_again {a b : Vertex} (h : Apart a b) : mkEdge (mkEdge a b).b (mkEdge a b).e = mkEdge a b := by
  rcases mkEdge_cases h with ⟨h1, h2⟩ | ⟨h1, h2⟩ <;> rw [h1] <;> exact mkEdge_of_lt h2

theorem bd_cone (φ : Edge → ZMod 2) (v : Vertex) {a b : Vertex} (h : Apart a b) :
    bd φ ⟨v, (mkEdge a b).b, (mkEdge a b).e⟩ = φ (mkEdge a b) + φ (mkEdge v a) + φ (mkEdge v b) := by
  unfold bd Triangle.ab Triangle.bc Triangle.ac
  rw [mkEdge_again h]
  rcases mkEdge_cases h with ⟨h1, -⟩ | ⟨h1, -⟩ <;> rw [h1] <;> ring

theorem bd_cone_sides (φ : Edge → ZMod 2) (v : Vertex) {t : Triangle} (h : t.Proper) :
    (t.sides.map (fun e => bd φ ⟨v, e.b, e.e⟩)).sum = bd φ t := by
  unfold Triangle.sides Triangle.ab Triangle.bc Triangle.ac
  simp only [List.map_cons, List.map_nil, List.sum_cons, List.sum_nil, add_zero]
  rw [bd_cone φ v h.1, bd_cone φ v h.2.1, bd_cone φ v h.2.2]
  unfold bd Triangle.ab Triangle.bc Triangle.ac
  have h2 : ∀ x : ZMod 2, x + x = 0 := CharTwo.add_self_eq_zero
  linear_combination h2 (φ (mkEdge v t.a)) + h2 (φ (mkEdge v t.b)) + h2 (φ (mkEdge v t.c))

theorem bd_fan {U : List Vertex} (hU : Distinct U) (φ : Edge → ZMod 2) (v : Vertex) (es : List Edge)
    (hes : ∀ e ∈ es, e.In U) : bdAll φ (fan v es) = (es.map (fun e => bd φ ⟨v, e.b, e.e⟩)).sum := by
  unfold bdAll
  induction es using fan.induct with
  | case1 => rfl
  | case2 e => simp [fan]
  | case3 e f es hef ih =>
    have := (eqv_iff hU (hes e (by simp)) (hes f (by simp))).mp hef
    subst this
    rw [fan, if_pos hef, ih (fun g hg => hes g (by simp [hg]))]
    simp only [List.map_cons, List.sum_cons]
    rw [← add_assoc, CharTwo.add_self_eq_zero, zero_add]
  | case4 e f es hef ih =>
    rw [fan, if_neg hef, List.map_cons, List.sum_cons, ih (fun g hg => hes g (List.mem_cons_of_mem _ hg))]
    simp only [List.map_cons, List.sum_cons]

theorem bdAll_append (φ : Edge → ZMod 2) (a b : List Triangle) : bdAll φ (a ++ b) = bdAll φ a + bdAll φ b := by
  simp [bdAll]

theorem bdAll_perm (φ : Edge → ZMod 2) {a b : List Triangle} (h : a.Perm b) : bdAll φ a = bdAll φ b :=
  (h.map _).sum_eq

open Classical in
theorem bdAll_split (φ : Edge → ZMod 2) (p : Triangle → Prop) (ts : List Triangle) :
    bdAll φ ts = bdAll φ (ts.filter (fun t => p t)) + bdAll φ (ts.filter (fun t => ¬ p t)) := by
  induction ts with
  | nil => simp [bdAll]
  | cons t ts ih =>
    have h1 : bdAll φ (t :: ts) = bd φ t + bdAll φ ts := by simp [bdAll]
    rw [h1, ih]
    by_cases h : p t
    · simp [h, bdAll]; ring
    · simp [h, bdAll]; ring

theorem insert_bd (s : Sorts) (hE : ∀ l, (s.edges l).Perm l) {U : List Vertex} (hU : Distinct U) {ts : List Triangle}
    (hts : ∀ t ∈ ts, ∀ w ∈ t.corners, w ∈ U) (hp : ∀ t ∈ ts, t.Proper) (v : Vertex) (φ : Edge → ZMod 2) :
    bdAll φ (insertVertex s ts v) = bdAll φ ts := by
  classical
  unfold insertVertex
  dsimp only
  have h2 : ∀ e ∈ s.edges (scan v ts).2, e.In U := by
    intro e he
    obtain ⟨u, hu, hb, hc⟩ := scan_snd v ts e ((hE _).mem_iff.mp he)
    exact ⟨hts u hu _ hb, hts u hu _ hc⟩
  rw [bdAll_append, bd_fan hU φ v _ h2, ((hE (scan v ts).2).map _).sum_eq, scan_eq]
  dsimp only
  rw [bdAll_split φ (fun t => t.contains v) ts, add_comm]
  congr 1
  have : ∀ l : List Triangle, (∀ t ∈ l, t.Proper) →
      ((l.flatMap Triangle.sides).map (fun e => bd φ ⟨v, e.b, e.e⟩)).sum = bdAll φ l := by
    intro l
    induction l with
    | nil => intro _; rfl
    | cons t l ih =>
      intro hl
      rw [List.flatMap_cons, List.map_append, List.sum_append, ih (fun u hu => hl u (by simp [hu])), bd_cone_sides φ v (hl t (by simp))]
      simp [bdAll]
  exact this _ (fun t ht => hp t (List.mem_of_mem_filter ht))

theorem insert_corners (s : Sorts) (hE : ∀ l, (s.edges l).Perm l) {U : List Vertex} {ts : List Triangle}
    (hts : ∀ t ∈ ts, ∀ w ∈ t.corners, w ∈ U) {v : Vertex} (hv : v ∈ U) :
    ∀ t ∈ insertVertex s ts v, ∀ w ∈ t.corners, w ∈ U := by
  intro t ht w hw
  unfold insertVertex at ht
  simp only [List.mem_append] at ht
  rcases ht with ht | ht
  · exact hts t (scan_fst v ts t ht).1 w hw
  · obtain ⟨h1, e, he, h2, h3⟩ := fan_mem v _ t ht
    obtain ⟨u, hu, hb, hc⟩ := scan_snd v ts e ((hE _).mem_iff.mp he)
    simp only [Triangle.corners, List.mem_cons, List.not_mem_nil, or_false] at hw
    rcases hw with rfl | rfl | rfl
    · rw [h1]; exact hv
    · rw [h2]; exact hts u hu _ hb
    · rw [h3]; exact hts u hu _ hc

/-- The boundary after all insertions. -/
theorem run_bd (s : Sorts) (hE : ∀ l, (s.edges l).Perm l) {U : List Vertex} (hU : Distinct U) (vs : List Vertex)
    (hvs : ∀ v ∈ vs, v ∈ U) {ts : List Triangle} (hts : ∀ t ∈ ts, ∀ w ∈ t.corners, w ∈ U) (hp : ∀ t ∈ ts, t.Proper)
    (φ : Edge → ZMod 2) :
    bdAll φ (vs.foldl (insertVertex s) ts) = bdAll φ ts ∧
    (∀ t ∈ vs.foldl (insertVertex s) ts, ∀ w ∈ t.corners, w ∈ U) ∧ (∀ t ∈ vs.foldl (insertVertex s) ts, t.Proper) := by
  induction vs generalizing ts with
  | nil => exact ⟨rfl, hts, hp⟩
  | cons v vs ih =>
    rw [List.foldl_cons, ← insert_bd s hE hU hts hp v φ]
    exact ih (fun w hw => hvs w (by simp [hw])) (insert_corners s hE hts (hvs v (by simp))) (insert_proper s hE ts hp v)

/-! ## Parity of the sides -/

open Classical in
/-- The indicator of an edge. -/
noncomputable def isEdge (e : Edge) : Edge → ZMod 2 := fun f => if f = e then 1 else 0

open Classical in
theorem isEdge_count (e : Edge) (ts : List Triangle) : bdAll (isEdge e) ts = ((ts.flatMap Triangle.sides).count e : ZMod 2) := by
  induction ts with
  | nil => simp [bdAll]
  | cons t ts ih =>
    have h1 : bdAll (isEdge e) (t :: ts) = bd (isEdge e) t + bdAll (isEdge e) ts := by simp [bdAll]
    rw [h1, ih, List.flatMap_cons, List.count_append, Nat.cast_add]
    congr 1
    unfold bd isEdge Triangle.sides
    simp only [List.count_cons, List.count_nil, beq_iff_eq]
    push_cast
    split_ifs <;> simp

theorem odd_mem {e : Edge} {ts : List Triangle} (h : bdAll (isEdge e) ts ≠ 0) : ∃ t ∈ ts, e ∈ t.sides := by
  classical
  rw [isEdge_count] at h
  have : (ts.flatMap Triangle.sides).count e ≠ 0 := by
    intro h0; rw [h0] at h; exact h (by simp)
  have := List.count_pos_iff.mp (Nat.pos_of_ne_zero this)
  simpa using List.mem_flatMap.mp this

end Verif.Triang
