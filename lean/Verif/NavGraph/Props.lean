import Verif.NavGraph.Lemmas

/-!
# C08, C10, C11: navigation graph

The statements speak about the *history of calls* (`Spec.lean`) and the results of the public
accessors.
-/

namespace Verif.NavGraph

open Verif.Geo (XYPoint GeoPoint)

variable {P Q : Type*}

/-- **C10.** Vertices: after any history of calls the ids in use are `0 … n-1` where `n` is the number of
`addVertex` calls, and looking up an id returns that id with the point added at that position;
every other lookup throws. -/
theorem C10_vertices (ops : List (Op P)) (i : Int) :
    (hasVertex (run ops) i = true ↔ NamesVertex ops i) ∧
    (∀ v, getVertex (run ops) i = some v ↔
      0 ≤ i ∧ v.id = i ∧ (addedPoints ops)[i.toNat]? = some v.point) ∧
    (getVertex (run ops) i = none ↔ ¬ NamesVertex ops i) := by
  have hr := represents_run ops
  have hnone : ¬ NamesVertex ops i → getVertex (run ops) i = none := by
    intro h
    unfold getVertex
    split_ifs with h0
    · rw [hr.vertices, List.getElem?_eq_none]
      simp only [List.length_mapIdx]
      unfold NamesVertex at h
      push Not at h
      have := h h0
      omega
    · rfl
  refine ⟨hr.hasVertex i, ?_, ?_⟩
  · intro v
    by_cases hn : NamesVertex ops i
    · obtain ⟨p, hp, hg⟩ := hr.getVertex i hn
      rw [hg, hp]
      constructor
      · intro h; cases h; exact ⟨hn.1, rfl, rfl⟩
      · rintro ⟨-, h1, h2⟩
        cases v; simp only [Option.some.injEq] at h2 ⊢; simp_all
    · rw [hnone hn]
      constructor
      · intro h; cases h
      · rintro ⟨h0, -, h2⟩
        have := (List.getElem?_eq_some_iff.mp h2).1
        exact absurd ⟨h0, by omega⟩ hn
  · constructor
    · intro h hn
      obtain ⟨p, -, hg⟩ := hr.getVertex i hn
      rw [h] at hg; cases hg
    · exact hnone

/-- **C10.** `addVertex` answers the id under which the point can be looked up afterwards. -/
theorem C10_addVertex (ops : List (Op P)) (p : P) :
    getVertex (addVertex (run ops) p).1 (addVertex (run ops) p).2.id = some (addVertex (run ops) p).2 ∧
    (addVertex (run ops) p).2.point = p := by
  refine ⟨?_, rfl⟩
  simp [addVertex, getVertex]

/-- **C10.** Edges: an edge is stored iff the history joined its two ends when both existed; each
edge is stored exactly once and with the smaller id first. -/
theorem C10_edges (ops : List (Op P)) :
    (run ops).edges.Nodup ∧
    ∀ i j : Int, toLex (i, j) ∈ (run ops).edges ↔ i ≤ j ∧ Joined ops i j := by
  have hr := represents_run ops
  refine ⟨hr.sorted.imp (fun h => ne_of_lt h), fun i j => ?_⟩
  rw [hr.mem]; simp

/-- **C10.** Every stored edge joins vertices that can be looked up. -/
theorem C10_edges_have_ends (ops : List (Op P)) (e : Int ×ₗ Int) (he : e ∈ (run ops).edges) :
    ∃ u v, getVertex (run ops) (ofLex e).1 = some u ∧ getVertex (run ops) (ofLex e).2 = some v := by
  have hr := represents_run ops
  obtain ⟨-, hj⟩ := (hr.mem e).mp he
  obtain ⟨p, -, h1⟩ := hr.getVertex _ hj.names.1
  obtain ⟨q, -, h2⟩ := hr.getVertex _ hj.names.2
  exact ⟨_, _, h1, h2⟩

/-- **C10.** `addEdge` throws exactly when one of the ends does not exist, and then the graph is as
before. -/
theorem C10_addEdge_throws (ops : List (Op P)) (a b : Int) :
    ((∃ s, addEdge (run ops) a b = .error s) ↔ ¬ (NamesVertex ops a ∧ NamesVertex ops b)) ∧
    ((∃ s, addEdge (run ops) a b = .error s) → run (ops ++ [.addEdge a b]) = run ops) := by
  have hr := represents_run ops
  have h1 := hr.hasVertex a
  have h2 := hr.hasVertex b
  constructor
  · rw [← h1, ← h2]
    unfold addEdge
    cases hasVertex (run ops) a <;> cases hasVertex (run ops) b <;> simp
  · rintro ⟨s, hs⟩
    have : run (ops ++ [Op.addEdge a b]) = step (run ops) (.addEdge a b) := by simp [run]
    rw [this]; simp only [step, hs]

example : Joined [Op.addVertex 7, .addVertex 8, .addEdge 1 0] 0 1 ∧
    toLex ((0 : Int), (1 : Int)) ∈ (run [Op.addVertex 7, .addVertex 8, .addEdge 1 0]).edges := by
  constructor
  · exact ⟨[.addVertex 7, .addVertex 8], [], 1, 0, rfl, by simp [NamesVertex, addedPoints],
      by simp [NamesVertex, addedPoints], Or.inr ⟨rfl, rfl⟩⟩
  · decide

/-- **C11.** Converting the coordinates of a graph built through the API never throws, keeps all
vertex ids and edges and replaces each point by its image. -/
theorem C11_convert (f : P → Q) (ops : List (Op P)) :
    convertGraph f (run ops) =
      .ok ⟨(run ops).vertices.map (fun v => ⟨v.id, f v.point⟩), (run ops).edges⟩ := by
  have hr := represents_run ops
  have hc := copyVertices_spec f (addedPoints ops)
  rw [← hr.vertices] at hc
  simp only at hc
  obtain ⟨hc1, hc2⟩ := hc
  unfold convertGraph
  simp only [hc1]
  have := copyEdges_spec (run ops) (copyVertices f (run ops).vertices).2
    ((addedPoints ops).mapIdx (fun i p => (⟨(i : Int), f p⟩ : Vertex Q))) (by simp [hr.length])
    (fun i v h => ((C10_vertices ops i).2.1 v).mp h |>.2.1)
    (fun i h0 h1 => hc2 i h0 (by rw [← hr.length]; exact h1))
    (run ops).edges [] (by simpa using hr.sorted)
    (fun e he => by
      obtain ⟨h1, h2⟩ := (hr.mem e).mp he
      have := h2.names
      rw [hr.length]
      exact ⟨h1, this.1.1, this.2.2⟩)
  rw [this, hr.vertices]
  congr 1
  simp only [List.nil_append, Graph.mk.injEq, and_true]
  apply List.ext_getElem
  · simp
  · intro n h1 h2; simp

/-- **C11.** The same, in terms of histories: the converted graph is the graph one would get by
converting the points first and calling the same operations. -/
theorem C11_convert_history (f : P → Q) (ops : List (Op P)) :
    convertGraph f (run ops) =
      .ok (run (ops.map (fun | .addVertex p => .addVertex (f p) | .addEdge a b => .addEdge a b))) := by
  rw [C11_convert]
  congr 1
  set F : Op P → Op Q := (fun | .addVertex p => .addVertex (f p) | .addEdge a b => .addEdge a b)
  induction ops using List.reverseRecOn with
  | nil => rfl
  | append_singleton ops op ih =>
    have h1 : run (ops ++ [op]) = step (run ops) op := by simp [run]
    have h2 : run ((ops ++ [op]).map F) = step (run (ops.map F)) (F op) := by simp [run]
    rw [h1, h2, ← ih]
    cases op with
    | addVertex p => simp [step, addVertex, F]
    | addEdge a b =>
      have hv : ∀ i, hasVertex (⟨(run ops).vertices.map (fun v => (⟨v.id, f v.point⟩ : Vertex Q)),
          (run ops).edges⟩ : Graph Q) i = hasVertex (run ops) i := by
        intro i; simp [hasVertex]
      simp only [step, addEdge, F, hv]
      by_cases h : (!hasVertex (run ops) a || !hasVertex (run ops) b) = true
      · rw [if_pos h, if_pos h]
      · rw [if_neg h, if_neg h]

/-- **C08.** Projection on a graph built through the API never throws and stays on the level; without edges
the position is unchanged; with edges the answer is a point of the graph and no point of the graph
is closer, up to 0.1 mm for edges shorter than that. -/
theorem C08_projection (ops : List (Op XYPoint)) (p : Geometry.LocationPoint) :
    ∃ r, projectOnGraph (run ops) p = some r ∧ r.level = p.level ∧
      ((∀ i j, ¬ Joined ops i j) → r = p) ∧
      ((∃ i j, Joined ops i j) → OnGraph ops ⟨r.x, r.y⟩) ∧
      ∀ q, OnGraph ops q →
        Geometry.dist ⟨p.x, p.y⟩ ⟨r.x, r.y⟩ ≤ Geometry.dist ⟨p.x, p.y⟩ q + 1e-4 := by
  have hr := represents_run ops
  obtain ⟨r, dr, h1, h2, h3, h4⟩ := projLoop_spec (run ops) p (run ops).edges
    (fun e he => C10_edges_have_ends ops e he) p none (fun d h => by cases h)
  have lookup : ∀ (i : Int) (u : Vertex XYPoint), getVertex (run ops) i = some u →
      ∃ n : ℕ, (n : Int) = i ∧ (addedPoints ops)[n]? = some u.point := by
    intro i u hu
    obtain ⟨h0, -, h⟩ := ((C10_vertices ops i).2.1 u).mp hu
    exact ⟨i.toNat, by omega, h⟩
  refine ⟨r, by unfold projectOnGraph; rw [h1]; rfl, ?_, ?_, ?_, ?_⟩
  · rcases h2 with ⟨rfl, -⟩ | ⟨e, -, u, v, -, -, rfl⟩
    · rfl
    · exact (edgeProjection_spec p u.point v.point).1
  · intro hno
    rcases h2 with ⟨rfl, -⟩ | ⟨e, he, -⟩
    · rfl
    · exact absurd ((hr.mem e).mp he).2 (hno _ _)
  · rintro ⟨i, j, hj⟩
    rcases h2 with ⟨-, h | h⟩ | ⟨e, he, u, v, hu, hv, rfl⟩
    · exfalso
      rcases le_total i j with hle | hle
      · have := (hr.mem (toLex (i, j))).mpr ⟨hle, hj⟩
        rw [h] at this; cases this
      · have := (hr.mem (toLex (j, i))).mpr ⟨hle, hj.symm⟩
        rw [h] at this; cases this
    · exact absurd rfl h
    · obtain ⟨n, hn, hn'⟩ := lookup _ _ hu
      obtain ⟨m, hm, hm'⟩ := lookup _ _ hv
      refine ⟨n, m, u.point, v.point, ?_, hn', hm', (edgeProjection_spec p u.point v.point).2.1⟩
      rw [hn, hm]; exact ((hr.mem e).mp he).2
  · rintro q ⟨i, j, u, v, hj, hu, hv, hq⟩
    have toDist : ∀ a b : Geometry.LocationPoint, Geometry.getDist a.x a.y b.x b.y =
        Geometry.dist ⟨a.x, a.y⟩ ⟨b.x, b.y⟩ := fun a b => Geometry.getDist_eq_dist ⟨a.x, a.y⟩ ⟨b.x, b.y⟩
    have use : ∀ (i j : ℕ) (u v : XYPoint), Joined ops i j → (i : Int) ≤ j → (addedPoints ops)[i]? = some u →
        (addedPoints ops)[j]? = some v → Geometry.OnSegment u v q →
        Geometry.dist ⟨p.x, p.y⟩ ⟨r.x, r.y⟩ ≤ Geometry.dist ⟨p.x, p.y⟩ q + 1e-4 := by
      intro i j u v hj hle hu hv hq
      have hmem := (hr.mem (toLex ((i : Int), (j : Int)))).mpr ⟨hle, hj⟩
      have := h4 _ hmem ⟨i, u⟩ ⟨j, v⟩ (((C10_vertices ops i).2.1 _).mpr ⟨by simp, rfl, by simpa using hu⟩)
        (((C10_vertices ops j).2.1 _).mpr ⟨by simp, rfl, by simpa using hv⟩)
      rw [toDist, toDist] at this
      exact this.trans ((edgeProjection_spec p u v).2.2.2 q hq)
    rcases le_total (i : Int) j with hle | hle
    · exact use i j u v hj hle hu hv hq
    · refine use j i v u hj.symm hle hv hu ?_
      obtain ⟨t, ht0, ht1, rfl⟩ := hq
      exact ⟨1 - t, by linarith, by linarith, by unfold Geometry.along; congr 1 <;> ring⟩

/-- **C08.** Exact minimality when no edge is a tiny non-trivial segment. -/
theorem C08_projection_exact (ops : List (Op XYPoint)) (p : Geometry.LocationPoint)
    (hlong : ∀ (i j : ℕ) (u v : XYPoint), Joined ops i j → (addedPoints ops)[i]? = some u →
      (addedPoints ops)[j]? = some v → u = v ∨ Geometry.eps < Geometry.sqDist u v) :
    ∃ r, projectOnGraph (run ops) p = some r ∧
      ∀ q, OnGraph ops q → Geometry.dist ⟨p.x, p.y⟩ ⟨r.x, r.y⟩ ≤ Geometry.dist ⟨p.x, p.y⟩ q := by
  have hr := represents_run ops
  obtain ⟨r, dr, h1, h2, h3, h4⟩ := projLoop_spec (run ops) p (run ops).edges
    (fun e he => C10_edges_have_ends ops e he) p none (fun d h => by cases h)
  refine ⟨r, by unfold projectOnGraph; rw [h1]; rfl, ?_⟩
  rintro q ⟨i, j, u, v, hj, hu, hv, hq⟩
  have toDist : ∀ a b : Geometry.LocationPoint, Geometry.getDist a.x a.y b.x b.y =
      Geometry.dist ⟨a.x, a.y⟩ ⟨b.x, b.y⟩ := fun a b => Geometry.getDist_eq_dist ⟨a.x, a.y⟩ ⟨b.x, b.y⟩
  have use : ∀ (i j : ℕ) (u v : XYPoint), Joined ops i j → (i : Int) ≤ j → (addedPoints ops)[i]? = some u →
      (addedPoints ops)[j]? = some v → Geometry.OnSegment u v q →
      Geometry.dist ⟨p.x, p.y⟩ ⟨r.x, r.y⟩ ≤ Geometry.dist ⟨p.x, p.y⟩ q := by
    intro i j u v hj hle hu hv hq
    have hmem := (hr.mem (toLex ((i : Int), (j : Int)))).mpr ⟨hle, hj⟩
    have := h4 _ hmem ⟨i, u⟩ ⟨j, v⟩ (((C10_vertices ops i).2.1 _).mpr ⟨by simp, rfl, by simpa using hu⟩)
      (((C10_vertices ops j).2.1 _).mpr ⟨by simp, rfl, by simpa using hv⟩)
    rw [toDist, toDist] at this
    exact this.trans ((edgeProjection_spec p u v).2.2.1 (hlong i j u v hj hu hv) q hq)
  rcases le_total (i : Int) j with hle | hle
  · exact use i j u v hj hle hu hv hq
  · refine use j i v u hj.symm hle hv hu ?_
    obtain ⟨t, ht0, ht1, rfl⟩ := hq
    exact ⟨1 - t, by linarith, by linarith, by unfold Geometry.along; congr 1 <;> ring⟩

/-- A history with an edge: the hypotheses of the projection theorems are met non-trivially. -/
example : Joined [Op.addVertex (⟨0, 0⟩ : XYPoint), .addVertex ⟨10, 0⟩, .addEdge 0 1] 0 1 ∧
    OnGraph [Op.addVertex (⟨0, 0⟩ : XYPoint), .addVertex ⟨10, 0⟩, .addEdge 0 1] ⟨5, 0⟩ := by
  have hj : Joined [Op.addVertex (⟨0, 0⟩ : XYPoint), .addVertex ⟨10, 0⟩, .addEdge 0 1] 0 1 :=
    ⟨[.addVertex ⟨0, 0⟩, .addVertex ⟨10, 0⟩], [], 0, 1, rfl, by simp [NamesVertex, addedPoints],
      by simp [NamesVertex, addedPoints], Or.inl ⟨rfl, rfl⟩⟩
  exact ⟨hj, 0, 1, ⟨0, 0⟩, ⟨10, 0⟩, hj, rfl, rfl, 1 / 2, by norm_num, by norm_num,
    by unfold Geometry.along; norm_num⟩

end Verif.NavGraph
