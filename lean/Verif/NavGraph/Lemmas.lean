import Verif.NavGraph.Spec
import Verif.Geometry.Lemmas

/-! # Helper lemmas about graphs -/

namespace Verif.NavGraph

open Verif.Geo (XYPoint)

variable {P Q : Type*}

theorem addedPoints_append (a b : List (Op P)) :
    addedPoints (a ++ b) = addedPoints a ++ addedPoints b := by
  induction a with
  | nil => rfl
  | cons x a ih => cases x <;> simp [addedPoints, ih]

theorem Joined.symm {ops : List (Op P)} {i j : Int} (h : Joined ops i j) : Joined ops j i := by
  obtain ⟨pre, post, a, b, h1, h2, h3, h4⟩ := h
  exact ⟨pre, post, a, b, h1, h2, h3, h4.symm⟩

theorem joined_nil (i j : Int) : ¬ Joined ([] : List (Op P)) i j := by
  rintro ⟨pre, post, a, b, h1, -⟩
  simp at h1

theorem joined_snoc (ops : List (Op P)) (op : Op P) (i j : Int) :
    Joined (ops ++ [op]) i j ↔ Joined ops i j ∨
      ∃ a b, op = .addEdge a b ∧ NamesVertex ops a ∧ NamesVertex ops b ∧
        ((a = i ∧ b = j) ∨ (a = j ∧ b = i)) := by
  constructor
  · rintro ⟨pre, post, a, b, h1, h2, h3, h4⟩
    rcases List.eq_nil_or_concat post with rfl | ⟨post', x, rfl⟩
    · have h1' : ops ++ [op] = pre ++ [Op.addEdge a b] := h1
      have := List.append_inj' h1' rfl
      obtain ⟨rfl, h⟩ := this
      simp only [List.cons.injEq, and_true] at h
      exact Or.inr ⟨a, b, h, h2, h3, h4⟩
    · have h1' : ops ++ [op] = (pre ++ Op.addEdge a b :: post') ++ [x] := by
        rw [h1]; simp
      obtain ⟨rfl, h⟩ := List.append_inj' h1' rfl
      exact Or.inl ⟨pre, post', a, b, rfl, h2, h3, h4⟩
  · rintro (⟨pre, post, a, b, rfl, h2, h3, h4⟩ | ⟨a, b, rfl, h2, h3, h4⟩)
    · exact ⟨pre, post ++ [op], a, b, by simp, h2, h3, h4⟩
    · exact ⟨ops, [], a, b, rfl, h2, h3, h4⟩

theorem Joined.names {ops : List (Op P)} {i j : Int} (h : Joined ops i j) :
    NamesVertex ops i ∧ NamesVertex ops j := by
  obtain ⟨pre, post, a, b, rfl, ⟨ha, ha'⟩, ⟨hb, hb'⟩, h4⟩ := h
  have mono : ((addedPoints pre).length : Int) ≤ (addedPoints (pre ++ Op.addEdge a b :: post)).length := by
    rw [addedPoints_append]; simp
  rcases h4 with ⟨rfl, rfl⟩ | ⟨rfl, rfl⟩
  · exact ⟨⟨ha, by omega⟩, ⟨hb, by omega⟩⟩
  · exact ⟨⟨hb, by omega⟩, ⟨ha, by omega⟩⟩

/-- The stored graph represents the history. -/
structure Represents (g : Graph P) (ops : List (Op P)) : Prop where
  vertices : g.vertices = (addedPoints ops).mapIdx (fun i p => ⟨(i : Int), p⟩)
  sorted : g.edges.Pairwise (· < ·)
  mem : ∀ e, e ∈ g.edges ↔ (ofLex e).1 ≤ (ofLex e).2 ∧ Joined ops (ofLex e).1 (ofLex e).2

theorem Represents.length {g : Graph P} {ops : List (Op P)} (h : Represents g ops) :
    g.vertices.length = (addedPoints ops).length := by rw [h.vertices]; simp

theorem Represents.hasVertex {g : Graph P} {ops : List (Op P)} (h : Represents g ops) (i : Int) :
    hasVertex g i = true ↔ NamesVertex ops i := by
  unfold NavGraph.hasVertex NamesVertex
  rw [h.length]; simp

theorem Represents.getVertex {g : Graph P} {ops : List (Op P)} (h : Represents g ops) (i : Int)
    (hi : NamesVertex ops i) : ∃ p, (addedPoints ops)[i.toNat]? = some p ∧
      getVertex g i = some ⟨i, p⟩ := by
  obtain ⟨h0, h1⟩ := hi
  have hlt : i.toNat < (addedPoints ops).length := by omega
  refine ⟨(addedPoints ops)[i.toNat], List.getElem?_eq_getElem hlt, ?_⟩
  unfold NavGraph.getVertex
  rw [if_pos h0, h.vertices, List.getElem?_mapIdx, List.getElem?_eq_getElem hlt]
  simp [Int.toNat_of_nonneg h0]

theorem represents_run (ops : List (Op P)) : Represents (run ops) ops := by
  induction ops using List.reverseRecOn with
  | nil => exact ⟨rfl, List.Pairwise.nil, fun e => by simp [run, empty, joined_nil]⟩
  | append_singleton ops op ih =>
    have hrun : run (ops ++ [op]) = step (run ops) op := by simp [run]
    rw [hrun]
    cases op with
    | addVertex p =>
      refine ⟨?_, ?_, ?_⟩
      · simp only [step, NavGraph.addVertex, addedPoints_append, addedPoints]
        rw [ih.vertices]
        simp [List.mapIdx_append]
      · exact ih.sorted
      · intro e
        rw [joined_snoc]
        simp only [reduceCtorEq, false_and, exists_false, or_false]
        exact ih.mem e
    | addEdge a b =>
      have hpts : addedPoints (ops ++ [Op.addEdge a b]) = addedPoints ops := by
        simp [addedPoints_append, addedPoints]
      simp only [step, addEdge]
      by_cases hab : NamesVertex ops a ∧ NamesVertex ops b
      · have h1 := (ih.hasVertex a).mpr hab.1
        have h2 := (ih.hasVertex b).mpr hab.2
        simp only [h1, h2, Bool.not_true, Bool.or_self, Bool.false_eq_true, if_false]
        refine ⟨by rw [hpts]; exact ih.vertices, StdSet.insert_sorted _ _ ih.sorted, ?_⟩
        intro e
        rw [joined_snoc, StdSet.mem_insert, ih.mem]
        have hne : ∀ (x : Int ×ₗ Int) (u v : Int), x = toLex (u, v) ↔ (ofLex x).1 = u ∧ (ofLex x).2 = v := by
          intro x u v
          constructor
          · rintro rfl; exact ⟨rfl, rfl⟩
          · rintro ⟨rfl, rfl⟩; rfl
        constructor
        · rintro (h | ⟨h, h'⟩)
          · split_ifs at h with hlt
            · obtain ⟨hx, hy⟩ := (hne _ _ _).mp h
              rw [hx, hy]
              exact ⟨le_of_lt hlt, Or.inr ⟨a, b, rfl, hab.1, hab.2, Or.inl ⟨rfl, rfl⟩⟩⟩
            · obtain ⟨hx, hy⟩ := (hne _ _ _).mp h
              rw [hx, hy]
              exact ⟨not_lt.mp hlt, Or.inr ⟨a, b, rfl, hab.1, hab.2, Or.inr ⟨rfl, rfl⟩⟩⟩
          · exact ⟨h, Or.inl h'⟩
        · rintro ⟨hle, h | ⟨a', b', heq, -, -, h⟩⟩
          · exact Or.inr ⟨hle, h⟩
          · cases heq
            left
            rcases h with ⟨h1, h2⟩ | ⟨h1, h2⟩
            · by_cases hlt : a < b
              · rw [if_pos hlt]; exact (hne _ _ _).mpr ⟨h1.symm, h2.symm⟩
              · rw [if_neg hlt]
                exact (hne _ _ _).mpr ⟨by omega, by omega⟩
            · by_cases hlt : a < b
              · omega
              · rw [if_neg hlt]; exact (hne _ _ _).mpr ⟨h2.symm, h1.symm⟩
      · have hbad : (!NavGraph.hasVertex (run ops) a || !NavGraph.hasVertex (run ops) b) = true := by
          rw [Bool.or_eq_true]
          by_contra hcon
          push Not at hcon
          simp only [ne_eq, Bool.not_eq_true', Bool.not_eq_false] at hcon
          exact hab ⟨(ih.hasVertex a).mp hcon.1, (ih.hasVertex b).mp hcon.2⟩
        rw [hbad]
        simp only [if_true]
        refine ⟨by rw [hpts]; exact ih.vertices, ih.sorted, ?_⟩
        intro e
        rw [joined_snoc, ih.mem]
        constructor
        · rintro ⟨h, h'⟩; exact ⟨h, Or.inl h'⟩
        · rintro ⟨h, h' | ⟨a', b', heq, ha', hb', -⟩⟩
          · exact ⟨h, h'⟩
          · cases heq; exact absurd ⟨ha', hb'⟩ hab

/-- The vertex loop of the conversion on a list of vertices with ids `0, 1, ...`. -/
theorem copyVertices_spec (f : P → Q) (ps : List P) :
    let vs : List (Vertex P) := ps.mapIdx (fun i p => ⟨(i : Int), p⟩)
    (copyVertices f vs).1 = ⟨ps.mapIdx (fun i p => ⟨(i : Int), f p⟩), []⟩ ∧
    ∀ i : Int, 0 ≤ i → i < ps.length → StdMap.find? (copyVertices f vs).2 i = some i := by
  induction ps using List.reverseRecOn with
  | nil => exact ⟨rfl, fun i h0 h1 => by simp at h1; omega⟩
  | append_singleton ps p ih =>
    simp only at ih ⊢
    obtain ⟨ih1, ih2⟩ := ih
    have hfold : copyVertices f ((ps ++ [p]).mapIdx (fun i p => (⟨(i : Int), p⟩ : Vertex P))) =
        (let acc := copyVertices f (ps.mapIdx (fun i p => (⟨(i : Int), p⟩ : Vertex P)))
         let r := addVertex acc.1 (f p)
         (r.1, StdMap.set acc.2 (ps.length : Int) r.2.id)) := by
      unfold copyVertices
      rw [List.mapIdx_append, List.foldl_append]
      simp
    rw [hfold]
    constructor
    · simp only [addVertex, ih1]
      simp [List.mapIdx_append]
    · intro i h0 h1
      simp only [addVertex, ih1, List.length_mapIdx]
      rw [StdMap.find?_set]
      by_cases h : (ps.length : Int) = i
      · rw [if_pos h, h]
      · rw [if_neg h]
        refine ih2 i h0 ?_
        simp at h1; omega

/-- Inserting an ascending list of edges one by one rebuilds the list. -/
theorem copyEdges_spec (g : Graph P) (m : List (Int × Int)) (vs : List (Vertex Q)) (hlen : vs.length = g.vertices.length)
    (hid : ∀ i (v : Vertex P), getVertex g i = some v → v.id = i)
    (hm : ∀ i : Int, 0 ≤ i → i < g.vertices.length → StdMap.find? m i = some i) :
    ∀ (es done : List (Int ×ₗ Int)), (done ++ es).Pairwise (· < ·) →
      (∀ e ∈ es, (ofLex e).1 ≤ (ofLex e).2 ∧ 0 ≤ (ofLex e).1 ∧ (ofLex e).2 < g.vertices.length) →
      copyEdges g m ⟨vs, done⟩ es = .ok ⟨vs, done ++ es⟩ := by
  intro es
  induction es with
  | nil => intro done _ _; simp [copyEdges]
  | cons e es ih =>
    intro done hs hv
    obtain ⟨hle, h0, h1⟩ := hv e List.mem_cons_self
    have hgv : ∀ i : Int, 0 ≤ i → i < g.vertices.length → ∃ v, getVertex g i = some v := by
      intro i hi0 hi1
      unfold getVertex
      rw [if_pos hi0]
      exact ⟨_, List.getElem?_eq_getElem (by omega)⟩
    obtain ⟨u, hu⟩ := hgv (ofLex e).1 h0 (by omega)
    obtain ⟨v, hv'⟩ := hgv (ofLex e).2 (by omega) h1
    simp only [copyEdges, hu, hv']
    have hmu : mapGet m u.id = (ofLex e).1 := by
      unfold mapGet; rw [hid _ _ hu, hm _ h0 (by omega)]; rfl
    have hmv : mapGet m v.id = (ofLex e).2 := by
      unfold mapGet; rw [hid _ _ hv', hm _ (by omega) h1]; rfl
    rw [hmu, hmv]
    have hins : StdSet.insert (if (ofLex e).1 < (ofLex e).2 then toLex ((ofLex e).1, (ofLex e).2)
        else toLex ((ofLex e).2, (ofLex e).1)) done = done ++ [e] := by
      have he : (if (ofLex e).1 < (ofLex e).2 then toLex ((ofLex e).1, (ofLex e).2)
          else toLex ((ofLex e).2, (ofLex e).1)) = e := by
        split_ifs with hlt
        · rfl
        · have : (ofLex e).1 = (ofLex e).2 := by omega
          change toLex ((ofLex e).2, (ofLex e).1) = toLex (ofLex e)
          congr 1
          exact Prod.ext this.symm this
      rw [he]
      have hd : ∀ x ∈ done, x < e := by
        intro x hx
        exact (List.pairwise_append.mp hs).2.2 x hx e List.mem_cons_self
      clear hs he ih
      induction done with
      | nil => rfl
      | cons x done ihd =>
        unfold StdSet.insert
        have hx := hd x List.mem_cons_self
        rw [if_neg (not_lt.mpr hx.le), if_pos hx, ihd (fun y hy => hd y (List.mem_cons_of_mem _ hy))]
        rfl
    have hb1 : hasVertex (⟨vs, done⟩ : Graph Q) (ofLex e).1 = true := by
      unfold hasVertex; simp [hlen]; omega
    have hb2 : hasVertex (⟨vs, done⟩ : Graph Q) (ofLex e).2 = true := by
      unfold hasVertex; simp [hlen]; omega
    simp only [addEdge, hb1, hb2, Bool.not_true, Bool.or_self, Bool.false_eq_true, if_false]
    rw [hins]
    have := ih (done ++ [e]) (by simpa using hs) (fun e' he' => hv e' (List.mem_cons_of_mem _ he'))
    simpa using this

/-- One edge: the answer lies on the segment, and nothing on the segment is closer, provided the
segment is a single point or longer than the tolerance. -/
theorem edgeProjection_spec (p : Geometry.LocationPoint) (u v : XYPoint) :
    (edgeProjection p u v).level = p.level ∧
    Geometry.OnSegment u v ⟨(edgeProjection p u v).x, (edgeProjection p u v).y⟩ ∧
    ((u = v ∨ Geometry.eps < Geometry.sqDist u v) → ∀ q, Geometry.OnSegment u v q →
      Geometry.dist ⟨p.x, p.y⟩ ⟨(edgeProjection p u v).x, (edgeProjection p u v).y⟩ ≤
        Geometry.dist ⟨p.x, p.y⟩ q) ∧
    ∀ q, Geometry.OnSegment u v q →
      Geometry.dist ⟨p.x, p.y⟩ ⟨(edgeProjection p u v).x, (edgeProjection p u v).y⟩ ≤
        Geometry.dist ⟨p.x, p.y⟩ q + 1e-4 := by
  have hlev : (edgeProjection p u v).level = p.level := by
    unfold edgeProjection; simp only; split_ifs <;> rfl
  by_cases hbig : Geometry.eps < Geometry.sqDist u v
  · -- a proper segment
    have hL : (v.x - u.x) * (v.x - u.x) + (v.y - u.y) * (v.y - u.y) > Geometry.eps := by
      unfold Geometry.sqDist at hbig; linarith
    have hpos := lt_trans Geometry.eps_pos hL
    have hval : (⟨(edgeProjection p u v).x, (edgeProjection p u v).y⟩ : XYPoint) =
        Geometry.along u v (min (max (((p.x - u.x) * (v.x - u.x) + (p.y - u.y) * (v.y - u.y)) /
          ((v.x - u.x) * (v.x - u.x) + (v.y - u.y) * (v.y - u.y))) 0) 1) := by
      unfold edgeProjection; rw [Geometry.getProjection_eq]
      simp only [hL, if_true]
      set k := ((p.x - u.x) * (v.x - u.x) + (p.y - u.y) * (v.y - u.y)) /
          ((v.x - u.x) * (v.x - u.x) + (v.y - u.y) * (v.y - u.y))
      unfold Geometry.along
      split_ifs with h1 h2
      · rw [max_eq_right h1.le, min_eq_left zero_le_one]; simp
      · rw [max_eq_left (by linarith), min_eq_right h2.le]; simp
      · push Not at h1 h2
        rw [max_eq_left h1, min_eq_left h2]
        congr 1 <;> ring
    rw [hval]
    have hmin : ∀ q, Geometry.OnSegment u v q →
        Geometry.dist ⟨p.x, p.y⟩ (Geometry.along u v (min (max (((p.x - u.x) * (v.x - u.x) +
          (p.y - u.y) * (v.y - u.y)) / ((v.x - u.x) * (v.x - u.x) + (v.y - u.y) * (v.y - u.y))) 0) 1)) ≤
        Geometry.dist ⟨p.x, p.y⟩ q := by
      rintro q ⟨t, ht0, ht1, rfl⟩
      exact Real.sqrt_le_sqrt (Geometry.clamp_minimises u v ⟨p.x, p.y⟩ t ht0 ht1 hpos)
    refine ⟨hlev, ⟨_, le_min (le_max_right _ _) zero_le_one, min_le_right _ _, rfl⟩, fun _ => hmin, ?_⟩
    intro q hq
    have := hmin q hq
    norm_num at this ⊢
    linarith
  · have hL : ¬ ((v.x - u.x) * (v.x - u.x) + (v.y - u.y) * (v.y - u.y) > Geometry.eps) := by
      unfold Geometry.sqDist at hbig; push Not at hbig ⊢; linarith
    have hval : (⟨(edgeProjection p u v).x, (edgeProjection p u v).y⟩ : XYPoint) = u := by
      unfold edgeProjection; rw [Geometry.getProjection_eq]
      have h10 : ¬ ((1 : ℝ) < 0) := by norm_num
      simp [hL, h10]
    rw [hval]
    refine ⟨hlev, ⟨0, le_refl _, zero_le_one, by unfold Geometry.along; simp⟩, ?_, ?_⟩
    · rintro (rfl | h) q ⟨t, ht0, ht1, rfl⟩
      · have : Geometry.along u u t = u := by unfold Geometry.along; ext <;> simp <;> ring
        rw [this]
      · exact absurd h hbig
    · rintro q ⟨t, ht0, ht1, rfl⟩
      have h1 := Geometry.dist_triangle ⟨p.x, p.y⟩ (Geometry.along u v t) u
      have h2 : Geometry.dist (Geometry.along u v t) u ≤ 1e-4 := by
        unfold Geometry.dist
        rw [Real.sqrt_le_left (by norm_num)]
        have h3 : Geometry.sqDist (Geometry.along u v t) u = t ^ 2 * Geometry.sqDist u v := by
          unfold Geometry.sqDist Geometry.along; ring
        rw [h3]
        have h4 : t ^ 2 ≤ 1 := by nlinarith
        have h5 := Geometry.sqDist_nonneg u v
        unfold Geometry.eps at hbig
        push Not at hbig
        calc t ^ 2 * Geometry.sqDist u v ≤ 1 * Geometry.sqDist u v := by gcongr
          _ ≤ _ := by norm_num at hbig ⊢; linarith
      linarith

/-- The loop over the edges: the result comes from the accumulator or from an edge, and is at least
as close as every edge's projection and the accumulator. -/
theorem projLoop_spec (g : Graph XYPoint) (p : Geometry.LocationPoint)
    (es : List (Int ×ₗ Int))
    (hv : ∀ e ∈ es, ∃ u v, getVertex g (ofLex e).1 = some u ∧ getVertex g (ofLex e).2 = some v) :
    ∀ p0 d0, (∀ d, d0 = some d → d = Geometry.getDist p.x p.y p0.x p0.y) →
    ∃ r dr, projLoop g p es (p0, d0) = some (r, dr) ∧
      ((r = p0 ∧ (es = [] ∨ d0 ≠ none)) ∨ ∃ e ∈ es, ∃ u v, getVertex g (ofLex e).1 = some u ∧
        getVertex g (ofLex e).2 = some v ∧ r = edgeProjection p u.point v.point) ∧
      (∀ d, d0 = some d → Geometry.getDist p.x p.y r.x r.y ≤ d) ∧
      (∀ e ∈ es, ∀ u v, getVertex g (ofLex e).1 = some u → getVertex g (ofLex e).2 = some v →
        Geometry.getDist p.x p.y r.x r.y ≤
          Geometry.getDist p.x p.y (edgeProjection p u.point v.point).x (edgeProjection p u.point v.point).y) := by
  induction es with
  | nil =>
    intro p0 d0 hd
    refine ⟨p0, d0, rfl, Or.inl ⟨rfl, Or.inl rfl⟩, ?_, ?_⟩
    · intro d h; rw [hd d h]
    · intro e he; cases he
  | cons e es ih =>
    intro p0 d0 hd
    obtain ⟨u, v, hu, hv'⟩ := hv e List.mem_cons_self
    have ih' := ih (fun e' he' => hv e' (List.mem_cons_of_mem _ he'))
    set p1 := edgeProjection p u.point v.point with hp1
    -- the case in which the candidate is taken
    have take : ∃ r dr, projLoop g p es (p1, some (Geometry.getDist p.x p.y p1.x p1.y)) = some (r, dr) ∧
        (∃ e' ∈ e :: es, ∃ u v, getVertex g (ofLex e').1 = some u ∧
          getVertex g (ofLex e').2 = some v ∧ r = edgeProjection p u.point v.point) ∧
        Geometry.getDist p.x p.y r.x r.y ≤ Geometry.getDist p.x p.y p1.x p1.y ∧
        (∀ e' ∈ e :: es, ∀ u v, getVertex g (ofLex e').1 = some u → getVertex g (ofLex e').2 = some v →
          Geometry.getDist p.x p.y r.x r.y ≤
          Geometry.getDist p.x p.y (edgeProjection p u.point v.point).x (edgeProjection p u.point v.point).y) := by
      obtain ⟨r, dr, h1, h2, h3, h4⟩ := ih' p1 (some (Geometry.getDist p.x p.y p1.x p1.y))
        (fun d h => by cases h; rfl)
      have hle := h3 _ rfl
      refine ⟨r, dr, h1, ?_, hle, ?_⟩
      · rcases h2 with ⟨rfl, -⟩ | ⟨e', he', h⟩
        · exact ⟨e, List.mem_cons_self, u, v, hu, hv', rfl⟩
        · exact ⟨e', List.mem_cons_of_mem _ he', h⟩
      · intro e' he' u' v' hu' hv''
        rcases List.mem_cons.mp he' with rfl | he'
        · rw [hu] at hu'; rw [hv'] at hv''; cases hu'; cases hv''; exact hle
        · exact h4 e' he' u' v' hu' hv''
    simp only [projLoop, hu, hv']
    cases d0 with
    | none =>
      obtain ⟨r, dr, h1, h2, h3, h4⟩ := take
      exact ⟨r, dr, h1, Or.inr h2, fun d h => (by cases h), h4⟩
    | some d0' =>
      simp only
      split_ifs with hlt
      · obtain ⟨r, dr, h1, h2, h3, h4⟩ := take
        exact ⟨r, dr, h1, Or.inr h2, fun d h => (by cases h; exact h3.trans hlt.le), h4⟩
      · obtain ⟨r, dr, h1, h2, h3, h4⟩ := ih' p0 (some d0') hd
        refine ⟨r, dr, h1, ?_, h3, ?_⟩
        · rcases h2 with ⟨rfl, -⟩ | ⟨e', he', h⟩
          · exact Or.inl ⟨rfl, Or.inr (by simp)⟩
          · exact Or.inr ⟨e', List.mem_cons_of_mem _ he', h⟩
        · intro e' he' u' v' hu' hv''
          rcases List.mem_cons.mp he' with rfl | he'
          · rw [hu] at hu'; rw [hv'] at hv''; cases hu'; cases hv''
            exact (h3 _ rfl).trans (not_lt.mp hlt)
          · exact h4 e' he' u' v' hu' hv''

end Verif.NavGraph
