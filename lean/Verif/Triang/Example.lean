import Verif.Triang.Props

/-!
# A concrete triangulation

Four points for which `TriangulateVertices` returns a triangle, whatever correct sort is used; it
shows that C48 is not vacuous and feeds the KNN witness (C75).
-/

namespace Verif.Triang.Example

open Verif.Triang
open Verif.Geometry (det3 eps)

/-- First point. -/
def pa : Vertex := ⟨100, 100, "a"⟩
/-- Second point. -/
def pb : Vertex := ⟨104, 100, "b"⟩
/-- Third point. -/
def pc : Vertex := ⟨100, 104, "c"⟩
/-- Fourth point. -/
def pd : Vertex := ⟨104, 105, "d"⟩
/-- Super triangle corner. -/
def s1 : Vertex := ⟨65, 90, "super1"⟩
/-- Super triangle corner. -/
def s2 : Vertex := ⟨139, 90, "super2"⟩
/-- Super triangle corner. -/
def s3 : Vertex := ⟨102, 127, "super3"⟩

theorem super_eq : superVertices pa [pa, pb, pc, pd] = [s1, s2, s3] := by
  simp only [superVertices, pa, pb, pc, pd, s1, s2, s3, List.foldl_cons, List.foldl_nil]
  norm_num

theorem fan_nodup {U : List Vertex} (hU : Distinct U) (v : Vertex) (es : List Edge) (hes : ∀ e ∈ es, e.In U)
    (hn : es.Nodup) : fan v es = es.map (fun e => ⟨v, e.b, e.e⟩) := by
  induction es using fan.induct with
  | case1 => rfl
  | case2 e => rfl
  | case3 e f es hef ih =>
    have := (eqv_iff hU (hes e (by simp)) (hes f (by simp))).mp hef
    subst this
    simp at hn
  | case4 e f es hef ih =>
    rw [fan, if_neg hef, ih (fun g hg => hes g (List.mem_cons_of_mem _ hg)) (List.nodup_cons.mp hn).2]
    rfl

open Classical in
theorem insert_perm (s : Sorts) (hE : StdSort Edge.lt s.edges) {U : List Vertex} (hU : Distinct U) (v : Vertex)
    (ts ks : List Triangle) (E : List Edge) (hp : ts.Perm ks)
    (hin : ∀ e ∈ E, e.In U) (hn : E.Nodup)
    (hE' : (ks.filter (fun t => t.contains v)).flatMap Triangle.sides = E) :
    (insertVertex s ts v).Perm (ks.filter (fun t => ¬ t.contains v) ++ E.map (fun e => ⟨v, e.b, e.e⟩)) := by
  unfold insertVertex
  simp only [scan_eq]
  have h1 : ((ts.filter (fun t => t.contains v)).flatMap Triangle.sides).Perm E := by
    rw [← hE']; exact (hp.filter _).flatMap_right _
  have h2 := (hE.perm ((ts.filter (fun t => t.contains v)).flatMap Triangle.sides)).trans h1
  rw [fan_nodup hU v _ (fun e he => hin e (h2.mem_iff.mp he)) (h2.nodup_iff.mpr hn)]
  exact (hp.filter _).append (h2.map _)

/-- All points of the example. -/
def U : List Vertex := [s1, s2, s3, pa, pb, pc, pd]

theorem distinct : Distinct U := by
  intro u hu w hw
  simp only [U, List.mem_cons, List.not_mem_nil, or_false] at hu hw
  rcases hu with rfl | rfl | rfl | rfl | rfl | rfl | rfl <;>
  rcases hw with rfl | rfl | rfl | rfl | rfl | rfl | rfl <;>
  simp [s1, s2, s3, pa, pb, pc, pd]

theorem contains_numeric (t : Triangle) (v : Vertex) :
    t.contains v ↔ (v.id ≠ t.a.id ∧ v.id ≠ t.b.id ∧ v.id ≠ t.c.id) ∧
      det3 t.a.x t.b.x t.c.x t.a.y t.b.y t.c.y 1 1 1 * det3
    (t.a.x - v.x) (t.a.y - v.y) ((t.a.x * t.a.x - v.x * v.x) + (t.a.y * t.a.y - v.y * v.y))
    (t.b.x - v.x) (t.b.y - v.y) ((t.b.x * t.b.x - v.x * v.x) + (t.b.y * t.b.y - v.y * v.y))
    (t.c.x - v.x) (t.c.y - v.y) ((t.c.x * t.c.x - v.x * v.x) + (t.c.y * t.c.y - v.y * v.y)) > eps := by
  unfold Triangle.contains
  simp only [Vertex.eqv, Bool.or_eq_true, beq_iff_eq, not_or, and_assoc, ne_eq]

theorem mk_of_lt {a b : Vertex} (h : a.lt b) : mkEdge a b = ⟨a, b⟩ ∧ mkEdge b a = ⟨a, b⟩ := by
  have h2 : ¬ b.lt a := fun h' => vlt_irrefl _ (vlt_trans h h')
  unfold mkEdge
  simp [h, h2]

theorem l_s1_s2 : s1.lt s2 := by left; norm_num [s1, s2]
theorem l_s1_s3 : s1.lt s3 := by left; norm_num [s1, s3]
theorem l_s3_s2 : s3.lt s2 := by left; norm_num [s2, s3]
theorem l_pa_s3 : pa.lt s3 := by left; norm_num [pa, s3]
theorem l_pa_s2 : pa.lt s2 := by left; norm_num [pa, s2]
theorem l_s1_pa : s1.lt pa := by left; norm_num [pa, s1]
theorem l_pa_pb : pa.lt pb := by left; norm_num [pa, pb]
theorem l_s3_pb : s3.lt pb := by left; norm_num [s3, pb]

set_option linter.unusedSimpArgs false

theorem c0 : Triangle.contains ⟨s1, s2, s3⟩ pa := by
  rw [contains_numeric]; simp only [s1, s2, s3, pa, det3, eps]; norm_num; decide
theorem c1 : ¬ Triangle.contains ⟨pa, s1, s2⟩ pb := by
  rw [contains_numeric]; simp only [s1, s2, s3, pa, pb, det3, eps]; norm_num
theorem c2 : Triangle.contains ⟨pa, s3, s2⟩ pb := by
  rw [contains_numeric]; simp only [s1, s2, s3, pa, pb, det3, eps]; norm_num; decide
theorem c3 : ¬ Triangle.contains ⟨pa, s1, s3⟩ pb := by
  rw [contains_numeric]; simp only [s1, s2, s3, pa, pb, det3, eps]; norm_num
theorem c4 : ¬ Triangle.contains ⟨pa, s1, s2⟩ pc := by
  rw [contains_numeric]; simp only [s1, s2, s3, pa, pb, pc, det3, eps]; norm_num
theorem c5 : Triangle.contains ⟨pa, s1, s3⟩ pc := by
  rw [contains_numeric]; simp only [s1, s2, s3, pa, pb, pc, det3, eps]; norm_num; decide
theorem c6 : Triangle.contains ⟨pb, pa, s3⟩ pc := by
  rw [contains_numeric]; simp only [s1, s2, s3, pa, pb, pc, det3, eps]; norm_num; decide
theorem c7 : ¬ Triangle.contains ⟨pb, s3, s2⟩ pc := by
  rw [contains_numeric]; simp only [s1, s2, s3, pa, pb, pc, det3, eps]; norm_num
theorem c8 : ¬ Triangle.contains ⟨pb, pa, s2⟩ pc := by
  rw [contains_numeric]; simp only [s1, s2, s3, pa, pb, pc, det3, eps]; norm_num
theorem c9 : ¬ Triangle.contains ⟨pc, pa, pb⟩ pd := by
  rw [contains_numeric]; simp only [s1, s2, s3, pa, pb, pc, pd, det3, eps]; norm_num

theorem ne_ids {u w : Vertex} (h : u.id ≠ w.id) : u ≠ w := fun h' => h (by rw [h'])

theorem corner_no (t : Triangle) (v : Vertex) (h : v ∈ t.corners) (s : Sorts) (hE : ∀ l, (s.edges l).Perm l) :
    insertVertex s [t] v = [t] := by
  classical
  have hn := not_contains_corner t v h
  unfold insertVertex
  rw [scan_eq]
  simp [hn, List.perm_nil.mp (hE []), fan]

open Classical in
theorem after_a (s : Sorts) (hE : StdSort Edge.lt s.edges) :
    (insertVertex s [⟨s1, s2, s3⟩] pa).Perm [⟨pa, s1, s2⟩, ⟨pa, s3, s2⟩, ⟨pa, s1, s3⟩] := by
  have h := insert_perm s hE distinct pa [⟨s1, s2, s3⟩] [⟨s1, s2, s3⟩] [⟨s1, s2⟩, ⟨s3, s2⟩, ⟨s1, s3⟩] (List.Perm.refl _)
    (by simp [Edge.In, U]) (by simp [s1, s2, s3]) (by
      simp [c0, Triangle.sides, Triangle.ab, Triangle.bc, Triangle.ac, (mk_of_lt l_s1_s2).1, (mk_of_lt l_s3_s2).2, (mk_of_lt l_s1_s3).1])
  simpa [c0] using h

open Classical in
theorem after_b (s : Sorts) (hE : StdSort Edge.lt s.edges) :
    (insertVertex s (insertVertex s [⟨s1, s2, s3⟩] pa) pb).Perm
      [⟨pa, s1, s2⟩, ⟨pa, s1, s3⟩, ⟨pb, pa, s3⟩, ⟨pb, s3, s2⟩, ⟨pb, pa, s2⟩] := by
  have h := insert_perm s hE distinct pb _ _ [⟨pa, s3⟩, ⟨s3, s2⟩, ⟨pa, s2⟩] (after_a s hE)
    (by simp [Edge.In, U]) (by simp [pa, s2, s3]) (by
      simp [c1, c2, c3, Triangle.sides, Triangle.ab, Triangle.bc, Triangle.ac, (mk_of_lt l_pa_s3).1, (mk_of_lt l_s3_s2).1, (mk_of_lt l_pa_s2).1])
  simpa [c1, c2, c3] using h

open Classical in
theorem after_c (s : Sorts) (hE : StdSort Edge.lt s.edges) :
    (⟨pc, pa, pb⟩ : Triangle) ∈ insertVertex s (insertVertex s (insertVertex s [⟨s1, s2, s3⟩] pa) pb) pc := by
  have hp := after_b s hE
  rw [C48_insertion s hE U distinct]
  · right
    refine ⟨⟨pa, pb⟩, rfl, ?_⟩
    rw [((hp.filter _).flatMap_right _).count_eq]
    simp only [c4, c5, c6, c7, c8, decide_true, decide_false, List.filter_cons, List.filter_nil, if_true,
      Bool.false_eq_true, if_false, List.flatMap_cons, List.flatMap_nil, Triangle.sides, Triangle.ab, Triangle.bc, Triangle.ac,
      (mk_of_lt l_s1_pa).2, (mk_of_lt l_s1_s3).1, (mk_of_lt l_pa_s3).1, (mk_of_lt l_pa_pb).2, (mk_of_lt l_s3_pb).2]
    simp [List.count_cons, s1, s3, pa, pb]
  · intro t ht w hw
    rw [hp.mem_iff] at ht
    simp only [List.mem_cons, List.not_mem_nil, or_false] at ht
    rcases ht with rfl | rfl | rfl | rfl | rfl <;>
    · simp only [Triangle.corners, List.mem_cons, List.not_mem_nil, or_false] at hw
      rcases hw with rfl | rfl | rfl <;> simp [U]

theorem sin_ok (x y z : ℝ) (hx : 0 ≤ x) (hy : 0 ≤ y) (hz : 0 ≤ z) : ¬ isBelow (quotient (2 * x) (y * z)) (-1) := by
  rintro ⟨v, h, hv⟩
  unfold quotient at h
  split_ifs at h
  have : 0 ≤ 2 * x / (y * z) := by positivity
  rw [Option.some.injEq] at h
  linarith

/-- For every correct sort the triangulation of the four points contains the triangle `c a b`. -/
theorem triangulation (s : Sorts) (hE : StdSort Edge.lt s.edges) (hT : ∀ l, (s.triangles l).Perm l) :
    (⟨pc, pa, pb⟩ : Triangle) ∈ triangulateVertices s [pa, pb, pc, pd] 6 := by
  classical
  unfold triangulateVertices
  rw [if_neg (by simp)]
  simp only [super_eq]
  rw [(hT _).mem_iff, List.mem_filter]
  constructor
  · simp only [List.cons_append, List.nil_append, List.foldl_cons, List.foldl_nil]
    rw [corner_no _ s1 (by simp [Triangle.corners]) s hE.perm, corner_no _ s2 (by simp [Triangle.corners]) s hE.perm,
      corner_no _ s3 (by simp [Triangle.corners]) s hE.perm]
    have h := after_c s hE
    unfold insertVertex at h ⊢
    rw [List.mem_append]
    left
    rw [scan_eq]
    simp only [List.mem_filter, decide_eq_true_eq]
    exact ⟨h, c9⟩
  · have hl : ∀ u w : Vertex, (u.x - w.x) ^ 2 + (u.y - w.y) ^ 2 ≤ 36 → ¬ (mkEdge u w).length > 6 := by
      intro u w h
      rw [mkEdge_length, vdist, not_lt]
      exact (Real.sqrt_le_sqrt h).trans (by rw [show (36 : ℝ) = 6 ^ 2 by norm_num]; rw [Real.sqrt_sq (by norm_num)])
    have h0 : ∀ e : Edge, 0 ≤ e.length := fun e => Real.sqrt_nonneg _
    have hs : 0 ≤ Triangle.square ⟨pc, pa, pb⟩ := by unfold Triangle.square; positivity
    have e1 := hl pc pa (by norm_num [pc, pa])
    have e2 := hl pa pb (by norm_num [pb, pa])
    have e3 := hl pc pb (by norm_num [pc, pb])
    simp only [dropped, Triangle.ab, Triangle.bc, Triangle.ac, Triangle.sinA, Triangle.sinB, Triangle.sinC, e1, e2, e3,
      sin_ok _ _ _ hs (h0 _) (h0 _), decide_false]
    simp [Vertex.eqv, pa, pb, pc, s1, s2, s3]

end Verif.Triang.Example
