import Verif.MapLoad.Model
import Verif.NavGraph.Lemmas

/-!
# Helper lemmas for the graph loader
-/

namespace Verif.MapLoad

open Verif.Geo (GeoPoint)
open Verif.NavGraph (Graph Vertex)
open Verif.Knn (Result)

theorem mapM_forall₂ {α β : Type} (f : α → Option β) (l : List α) (m : List β)
    (h : l.mapM f = some m) : List.Forall₂ (fun a b => f a = some b) l m := by
  induction l generalizing m with
  | nil => simp at h; subst h; exact .nil
  | cons a l ih =>
    rw [List.mapM_cons] at h
    cases hf : f a with
    | none => rw [hf] at h; simp at h
    | some b =>
      rw [hf] at h
      cases hl : l.mapM f with
      | none => rw [hl] at h; simp at h
      | some m' =>
        rw [hl] at h
        simp at h
        subst h
        exact .cons hf (ih m' hl)

theorem mapM_isSome {α β : Type} (f : α → Option β) (l : List α) (h : ∀ a ∈ l, ∃ b, f a = some b) :
    ∃ m, l.mapM f = some m := by
  induction l with
  | nil => exact ⟨[], rfl⟩
  | cons a l ih =>
    obtain ⟨b, hb⟩ := h a List.mem_cons_self
    obtain ⟨m, hm⟩ := ih (fun a ha => h a (List.mem_cons_of_mem _ ha))
    exact ⟨b :: m, by rw [List.mapM_cons, hb, hm]; rfl⟩

/-! ## Merging of points -/

theorem mergedPoints_subset (pts : List GeoPoint) : ∀ p ∈ mergedPoints pts, p ∈ pts := by
  fun_induction mergedPoints pts with
  | case1 => simp
  | case2 p rest ih =>
    intro q hq
    rcases List.mem_cons.mp hq with rfl | hq
    · exact List.mem_cons_self
    · exact List.mem_of_mem_filter (ih q hq)

theorem mergedPoints_covers (pts : List GeoPoint) :
    ∀ q ∈ pts, ∃ p ∈ mergedPoints pts, isSame q p = true := by
  fun_induction mergedPoints pts with
  | case1 => simp
  | case2 p rest ih =>
    intro q hq
    by_cases h : isSame q p = true
    · exact ⟨p, List.mem_cons_self, h⟩
    · obtain ⟨r, hr, hqr⟩ := ih q (List.mem_filter.mpr ⟨hq, by simp [h]⟩)
      exact ⟨r, List.mem_cons_of_mem _ hr, hqr⟩

theorem mergedPoints_apart (pts : List GeoPoint) :
    (mergedPoints pts).Pairwise (fun p q => isSame q p = false) := by
  fun_induction mergedPoints pts with
  | case1 => exact List.Pairwise.nil
  | case2 p rest ih =>
    refine List.pairwise_cons.mpr ⟨?_, ih⟩
    intro q hq
    have := mergedPoints_subset _ q hq
    have h2 := (List.mem_filter.mp this).2
    simpa using h2

/-! ## The vertex map -/

theorem mem_vertexMap (pts : List GeoPoint) (k : Int) (p : GeoPoint) :
    (k, p) ∈ vertexMap pts ↔ ∃ i : ℕ, k = (i : Int) + 1 ∧ (mergedPoints pts)[i]? = some p := by
  unfold vertexMap
  rw [List.mem_mapIdx]
  constructor
  · rintro ⟨i, hi, h⟩
    cases h
    exact ⟨i, rfl, List.getElem?_eq_getElem hi⟩
  · rintro ⟨i, rfl, h⟩
    obtain ⟨hi, rfl⟩ := List.getElem?_eq_some_iff.mp h
    exact ⟨i, hi, rfl⟩

theorem vertexMap_sorted (pts : List GeoPoint) : StdMap.Sorted (vertexMap pts) := by
  unfold vertexMap StdMap.Sorted
  rw [List.pairwise_iff_getElem]
  intro i j hi hj hij
  simp only [List.getElem_mapIdx]
  omega

theorem pointOf_of_mem {pts : List GeoPoint} {k : Int} {p : GeoPoint} (h : (k, p) ∈ vertexMap pts) :
    pointOf (vertexMap pts) k = p := by
  unfold pointOf
  rw [StdMap.find?_of_mem (vertexMap_sorted pts) h]; rfl

theorem getVertex_some {q : GeoPoint} {m : List (Int × GeoPoint)} {v : Int}
    (h : getVertex q m = some v) : ∃ p, (v, p) ∈ m ∧ isSame q p = true := by
  induction m with
  | nil => simp [getVertex] at h
  | cons a m ih =>
    obtain ⟨k, p⟩ := a
    unfold getVertex at h
    split_ifs at h with h0
    · cases h; exact ⟨p, List.mem_cons_self, h0⟩
    · obtain ⟨p', h1, h2⟩ := ih h
      exact ⟨p', List.mem_cons_of_mem _ h1, h2⟩

theorem getVertex_isSome {q : GeoPoint} {m : List (Int × GeoPoint)}
    (h : ∃ v p, (v, p) ∈ m ∧ isSame q p = true) : ∃ v, getVertex q m = some v := by
  induction m with
  | nil => obtain ⟨v, p, h, -⟩ := h; cases h
  | cons a m ih =>
    obtain ⟨k, p⟩ := a
    unfold getVertex
    by_cases h0 : isSame q p = true
    · exact ⟨k, by rw [if_pos h0]⟩
    · rw [if_neg h0]
      obtain ⟨v, p', h1, h2⟩ := h
      rcases List.mem_cons.mp h1 with h1 | h1
      · cases h1; exact absurd h2 h0
      · exact ih ⟨v, p', h1, h2⟩

/-! ## The adjacency sets -/

/-- `v2` is in the set stored under `v1`. -/
def Adj (adj : List (Int × List Int)) (v1 v2 : Int) : Prop :=
  v2 ∈ (StdMap.find? adj v1).getD []

theorem adj_set (adj : List (Int × List Int)) (a b x y : Int) :
    Adj (StdMap.set adj a (StdSet.insert b ((StdMap.find? adj a).getD []))) x y ↔
      Adj adj x y ∨ (x = a ∧ y = b) := by
  unfold Adj
  rw [StdMap.find?_set]
  by_cases h : a = x
  · subst h
    rw [if_pos rfl, Option.getD_some, StdSet.mem_insert]; tauto
  · rw [if_neg h]
    constructor
    · exact Or.inl
    · rintro (h' | ⟨rfl, _⟩)
      · exact h'
      · exact absurd rfl h

theorem adj_addLine (adj : List (Int × List Int)) (a b x y : Int) :
    Adj (addLine adj a b) x y ↔ Adj adj x y ∨ (x = a ∧ y = b) ∨ (x = b ∧ y = a) := by
  unfold addLine
  rw [adj_set, adj_set, or_assoc]

theorem addLine_sorted (adj : List (Int × List Int)) (a b : Int) (h : StdMap.Sorted adj) :
    StdMap.Sorted (addLine adj a b) := by
  unfold addLine
  exact StdMap.set_sorted _ _ _ (StdMap.set_sorted _ _ _ h)

/-- What the lines ask for: a line joins `x` and `y`. -/
def LineAdj (iter : List (Int × GeoPoint)) (ls : List (List GeoPoint)) (x y : Int) : Prop :=
  ∃ p1 p2 rest v1 v2, (p1 :: p2 :: rest) ∈ ls ∧ getVertex p1 iter = some v1 ∧
    getVertex p2 iter = some v2 ∧ ((x = v1 ∧ y = v2) ∨ (x = v2 ∧ y = v1))

theorem lineAdj_cons (iter : List (Int × GeoPoint)) (p1 p2 : GeoPoint) (rest : List GeoPoint)
    (ls : List (List GeoPoint)) (v1 v2 x y : Int) (h1 : getVertex p1 iter = some v1)
    (h2 : getVertex p2 iter = some v2) :
    LineAdj iter ((p1 :: p2 :: rest) :: ls) x y ↔
      ((x = v1 ∧ y = v2) ∨ (x = v2 ∧ y = v1)) ∨ LineAdj iter ls x y := by
  constructor
  · rintro ⟨q1, q2, r, w1, w2, hm, hw1, hw2, h⟩
    rcases List.mem_cons.mp hm with hm | hm
    · cases hm
      rw [h1] at hw1; rw [h2] at hw2
      cases hw1; cases hw2
      exact Or.inl h
    · exact Or.inr ⟨q1, q2, r, w1, w2, hm, hw1, hw2, h⟩
  · rintro (h | ⟨q1, q2, r, w1, w2, hm, hw1, hw2, h⟩)
    · exact ⟨p1, p2, rest, v1, v2, List.mem_cons_self, h1, h2, h⟩
    · exact ⟨q1, q2, r, w1, w2, List.mem_cons_of_mem _ hm, hw1, hw2, h⟩

theorem adjacency_spec (iter : List (Int × GeoPoint)) (ls : List (List GeoPoint))
    (adj res : List (Int × List Int)) (hs : StdMap.Sorted adj)
    (h : adjacency iter adj ls = .ok res) :
    StdMap.Sorted res ∧ ∀ x y, Adj res x y ↔ Adj adj x y ∨ LineAdj iter ls x y := by
  induction ls generalizing adj with
  | nil =>
    simp only [adjacency] at h; cases h
    refine ⟨hs, fun x y => ⟨Or.inl, ?_⟩⟩
    rintro (h | ⟨_, _, _, _, _, h, _⟩)
    · exact h
    · cases h
  | cons l ls ih =>
    match l, h with
    | [], h => simp [adjacency] at h
    | [_], h => simp [adjacency] at h
    | p1 :: p2 :: rest, h =>
      simp only [adjacency] at h
      split at h
      · rename_i v1 v2 h1 h2
        obtain ⟨hs', hr⟩ := ih _ (addLine_sorted _ _ _ hs) h
        refine ⟨hs', fun x y => ?_⟩
        rw [hr, adj_addLine, lineAdj_cons iter p1 p2 rest ls v1 v2 x y h1 h2, or_assoc]
      · cases h

/-- No stored set is empty. -/
theorem adjacency_nonempty (iter : List (Int × GeoPoint)) (ls : List (List GeoPoint))
    (adj res : List (Int × List Int)) (hs : ∀ k, (StdMap.find? adj k).isSome → ∃ y, Adj adj k y)
    (h : adjacency iter adj ls = .ok res) :
    ∀ k, (StdMap.find? res k).isSome → ∃ y, Adj res k y := by
  induction ls generalizing adj with
  | nil => simp only [adjacency] at h; cases h; exact hs
  | cons l ls ih =>
    match l, h with
    | [], h => simp [adjacency] at h
    | [_], h => simp [adjacency] at h
    | p1 :: p2 :: rest, h =>
      simp only [adjacency] at h
      split at h
      · rename_i v1 v2 h1 h2
        refine ih _ ?_ h
        intro k hk
        by_cases hk1 : k = v1
        · exact ⟨v2, (adj_addLine _ _ _ _ _).mpr (Or.inr (Or.inl ⟨hk1, rfl⟩))⟩
        · by_cases hk2 : k = v2
          · exact ⟨v1, (adj_addLine _ _ _ _ _).mpr (Or.inr (Or.inr ⟨hk2, rfl⟩))⟩
          · unfold addLine at hk
            dsimp only at hk
            rw [StdMap.find?_set, if_neg (Ne.symm hk2), StdMap.find?_set, if_neg (Ne.symm hk1)] at hk
            obtain ⟨y, hy⟩ := hs k hk
            exact ⟨y, (adj_addLine _ _ _ _ _).mpr (Or.inl hy)⟩
      · cases h

theorem adjacency_total (iter : List (Int × GeoPoint)) (ls : List (List GeoPoint))
    (adj : List (Int × List Int)) (hlen : ∀ l ∈ ls, 2 ≤ l.length)
    (hv : ∀ l ∈ ls, ∀ p ∈ l, ∃ v, getVertex p iter = some v) :
    ∃ res, adjacency iter adj ls = .ok res := by
  induction ls generalizing adj with
  | nil => exact ⟨adj, by simp [adjacency]⟩
  | cons l ls ih =>
    have hl := hlen l List.mem_cons_self
    match l, hl, hv l List.mem_cons_self with
    | p1 :: p2 :: rest, _, hv1 =>
      obtain ⟨v1, h1⟩ := hv1 p1 (by simp)
      obtain ⟨v2, h2⟩ := hv1 p2 (by simp)
      simp only [adjacency, h1, h2]
      exact ih _ (fun l hl => hlen l (List.mem_cons_of_mem _ hl))
        (fun l hl => hv l (List.mem_cons_of_mem _ hl))

theorem adjacency_undefined (iter : List (Int × GeoPoint)) (ls : List (List GeoPoint))
    (adj : List (Int × List Int)) (hshort : ∃ l ∈ ls, l.length < 2)
    (hv : ∀ l ∈ ls, ∀ p ∈ l, ∃ v, getVertex p iter = some v) :
    adjacency iter adj ls = .undefined := by
  induction ls generalizing adj with
  | nil => obtain ⟨l, hl, -⟩ := hshort; cases hl
  | cons l ls ih =>
    match l, hv l List.mem_cons_self, hshort with
    | [], _, _ => simp [adjacency]
    | [_], _, _ => simp [adjacency]
    | p1 :: p2 :: rest, hv1, hshort =>
      obtain ⟨v1, h1⟩ := hv1 p1 (by simp)
      obtain ⟨v2, h2⟩ := hv1 p2 (by simp)
      simp only [adjacency, h1, h2]
      refine ih _ ?_ (fun l hl => hv l (List.mem_cons_of_mem _ hl))
      obtain ⟨l', hl', h'⟩ := hshort
      rcases List.mem_cons.mp hl' with rfl | hl'
      · simp at h'
      · exact ⟨l', hl', h'⟩

/-! ## Building the graph -/

/-- The pair under which an edge is stored. -/
def edgePair (i j : Int) : Int ×ₗ Int := if i < j then toLex (i, j) else toLex (j, i)

/-- Invariant of the building loops.  `labels` are the map vertices of the graph vertices, `M` the
graph vertex created in a map vertex' own turn, `A` the one stored in `addedVertices`, `R` the
pairs treated so far. -/
structure Inv (vm : List (Int × GeoPoint)) (g : Graph GeoPoint) (A : List (Int × Vertex GeoPoint))
    (M : Int → Option ℕ) (labels : List Int) (R : Int → Int → Prop) : Prop where
  verts : g.vertices = labels.mapIdx (fun i k => ⟨(i : Int), pointOf vm k⟩)
  added : ∀ k w, StdMap.find? A k = some w →
    ∃ i : ℕ, labels[i]? = some k ∧ w = ⟨(i : Int), pointOf vm k⟩
  main : ∀ k i, M k = some i → labels[i]? = some k
  which : ∀ (i : ℕ) k, labels[i]? = some k → M k = some i ∨
    ∃ w, StdMap.find? A k = some w ∧ w.id = (i : Int)
  complete : ∀ x y, R x y → ∃ i w, M x = some i ∧ StdMap.find? A y = some w ∧
    edgePair (i : Int) w.id ∈ g.edges
  sound : ∀ e ∈ g.edges, ∃ x y i w, R x y ∧ M x = some i ∧ StdMap.find? A y = some w ∧
    e = edgePair (i : Int) w.id
  mainAdded : ∀ k, (M k).isSome → (StdMap.find? A k).isSome
  addedBy : ∀ k, (StdMap.find? A k).isSome → M k = none → ∃ u, R u k
  glue : ∀ k i w, M k = some i → StdMap.find? A k = some w →
    (w.id = (i : Int) ↔ ∀ u, R u k → ¬ u < k)

theorem inv_length {vm : List (Int × GeoPoint)} {g : Graph GeoPoint} {A : List (Int × Vertex GeoPoint)}
    {M : Int → Option ℕ} {labels : List Int} {R : Int → Int → Prop} (h : Inv vm g A M labels R) :
    g.vertices.length = labels.length := by rw [h.verts]; simp

theorem lt_of_getElem? {α : Type*} {l : List α} {i : ℕ} {a : α} (h : l[i]? = some a) : i < l.length :=
  (List.getElem?_eq_some_iff.mp h).1

theorem getElem?_snoc_old {α : Type*} {l : List α} {i : ℕ} {a b : α} (h : l[i]? = some a) :
    (l ++ [b])[i]? = some a := by
  rw [List.getElem?_append_left (lt_of_getElem? h)]; exact h

theorem getElem?_snoc {α : Type*} {l : List α} {i : ℕ} {a b : α} (h : (l ++ [b])[i]? = some a) :
    l[i]? = some a ∨ (i = l.length ∧ a = b) := by
  by_cases hi : i < l.length
  · rw [List.getElem?_append_left hi] at h; exact Or.inl h
  · right
    have h1 := lt_of_getElem? h
    rw [List.length_append, List.length_singleton] at h1
    have : i = l.length := by omega
    subst this
    simp at h
    exact ⟨rfl, h.symm⟩

/-- The start of the turn of `v1`. -/
theorem inv_main {vm : List (Int × GeoPoint)} {g : Graph GeoPoint} {A : List (Int × Vertex GeoPoint)}
    {M : Int → Option ℕ} {labels : List Int} {R : Int → Int → Prop} (h : Inv vm g A M labels R)
    (v1 : Int) (hlt : ∀ k, (M k).isSome → k < v1) :
    Inv vm (NavGraph.addVertex g (pointOf vm v1)).1
      (StdMap.insert A v1 (NavGraph.addVertex g (pointOf vm v1)).2)
      (Function.update M v1 (some labels.length)) (labels ++ [v1]) R ∧
    (NavGraph.addVertex g (pointOf vm v1)).2 = ⟨(labels.length : Int), pointOf vm v1⟩ := by
  have hlen := inv_length h
  have hnew : (NavGraph.addVertex g (pointOf vm v1)).2 = ⟨(labels.length : Int), pointOf vm v1⟩ := by
    simp [NavGraph.addVertex, hlen]
  have hM1 : M v1 = none := by
    by_contra hc
    exact lt_irrefl _ (hlt v1 (Option.isSome_iff_ne_none.mpr hc))
  rw [hnew]
  refine ⟨?_, rfl⟩
  have hg : (NavGraph.addVertex g (pointOf vm v1)).1.vertices =
      g.vertices ++ [⟨(labels.length : Int), pointOf vm v1⟩] := by simp [NavGraph.addVertex, hlen]
  have hge : (NavGraph.addVertex g (pointOf vm v1)).1.edges = g.edges := rfl
  have hfind : ∀ k, StdMap.find? (StdMap.insert A v1 ⟨(labels.length : Int), pointOf vm v1⟩) k =
      if v1 = k then some ((StdMap.find? A v1).getD ⟨(labels.length : Int), pointOf vm v1⟩)
      else StdMap.find? A k := fun k => StdMap.find?_insert _ _ _ _
  have hold : ∀ k w, StdMap.find? A k = some w →
      StdMap.find? (StdMap.insert A v1 ⟨(labels.length : Int), pointOf vm v1⟩) k = some w := by
    intro k w hw
    rw [hfind]
    split_ifs with hk
    · subst hk; rw [hw]; rfl
    · exact hw
  have hMold : ∀ k i, M k = some i → Function.update M v1 (some labels.length) k = some i := by
    intro k i hi
    have : k ≠ v1 := by rintro rfl; rw [hM1] at hi; cases hi
    rw [Function.update_of_ne this]; exact hi
  refine ⟨?_, ?_, ?_, ?_, ?_, ?_, ?_, ?_, ?_⟩
  · rw [hg, h.verts]; simp [List.mapIdx_append]
  · intro k w hw
    rw [hfind] at hw
    split_ifs at hw with hk
    · subst hk
      cases hA : StdMap.find? A v1 with
      | none =>
        rw [hA] at hw; cases hw
        exact ⟨labels.length, by simp, rfl⟩
      | some w' =>
        rw [hA] at hw; cases hw
        obtain ⟨i, h1, h2⟩ := h.added _ _ hA
        exact ⟨i, getElem?_snoc_old h1, h2⟩
    · obtain ⟨i, h1, h2⟩ := h.added _ _ hw
      exact ⟨i, getElem?_snoc_old h1, h2⟩
  · intro k i hi
    by_cases hk : k = v1
    · subst hk
      rw [Function.update_self] at hi; cases hi; simp
    · rw [Function.update_of_ne hk] at hi
      exact getElem?_snoc_old (h.main k i hi)
  · intro i k hi
    rcases getElem?_snoc hi with hi | ⟨rfl, rfl⟩
    · rcases h.which i k hi with h1 | ⟨w, h1, h2⟩
      · exact Or.inl (hMold _ _ h1)
      · exact Or.inr ⟨w, hold _ _ h1, h2⟩
    · left; rw [Function.update_self]
  · intro x y hxy
    obtain ⟨i, w, h1, h2, h3⟩ := h.complete x y hxy
    exact ⟨i, w, hMold _ _ h1, hold _ _ h2, by rw [hge]; exact h3⟩
  · intro e he
    rw [hge] at he
    obtain ⟨x, y, i, w, h0, h1, h2, h3⟩ := h.sound e he
    exact ⟨x, y, i, w, h0, hMold _ _ h1, hold _ _ h2, h3⟩
  · intro k hk
    rw [hfind]
    split_ifs with hk'
    · rfl
    · rw [Function.update_of_ne (Ne.symm hk')] at hk
      exact h.mainAdded k hk
  · intro k hk hM
    by_cases hk' : k = v1
    · subst hk'; rw [Function.update_self] at hM; cases hM
    · rw [Function.update_of_ne hk'] at hM
      rw [hfind, if_neg (Ne.symm hk')] at hk
      exact h.addedBy k hk hM
  · intro k i w hi hw
    by_cases hk : k = v1
    · subst hk
      rw [Function.update_self] at hi; cases hi
      rw [hfind, if_pos rfl] at hw
      cases hA : StdMap.find? A k with
      | none =>
        rw [hA] at hw; cases hw
        constructor
        · intro _ u hu _
          obtain ⟨_, _, _, h2, _⟩ := h.complete u k hu
          rw [hA] at h2; cases h2
        · intro _; rfl
      | some w' =>
        rw [hA] at hw; cases hw
        obtain ⟨j, h1, rfl⟩ := h.added _ _ hA
        have hj := lt_of_getElem? h1
        constructor
        · intro heq
          have : (j : Int) = (labels.length : Int) := heq
          omega
        · intro hno
          obtain ⟨u, hu⟩ := h.addedBy k (by rw [hA]; rfl) hM1
          obtain ⟨iu, _, h2, _⟩ := h.complete u k hu
          exact absurd (hlt u (by rw [h2]; rfl)) (hno u hu)
    · rw [Function.update_of_ne hk] at hi
      rw [hfind, if_neg (Ne.symm hk)] at hw
      exact h.glue k i w hi hw

theorem addEdge_ok (g : Graph GeoPoint) (i j : ℕ) (hi : i < g.vertices.length)
    (hj : j < g.vertices.length) :
    NavGraph.addEdge g i j = .ok { g with edges := StdSet.insert (edgePair i j) g.edges } := by
  have h1 : NavGraph.hasVertex g i = true := by simp [NavGraph.hasVertex, hi]
  have h2 : NavGraph.hasVertex g j = true := by simp [NavGraph.hasVertex, hj]
  simp only [NavGraph.addEdge, h1, h2, Bool.not_true, Bool.or_self, Bool.false_eq_true, if_false]
  rfl

/-- One neighbour `v2` in the turn of `v1`. -/
theorem inv_neighbour {vm : List (Int × GeoPoint)} {b : Build}
    {M : Int → Option ℕ} {labels : List Int} {R : Int → Int → Prop}
    (h : Inv vm b.graph b.added M labels R) (v1 v2 : Int) (i1 : ℕ) (hi1 : M v1 = some i1)
    (hle : ∀ k, (M k).isSome → k ≤ v1) :
    ∃ b' labels', addNeighbour vm (i1 : Int) b v2 = .ok b' ∧
      Inv vm b'.graph b'.added M labels' (fun x y => R x y ∨ (x = v1 ∧ y = v2)) := by
  have hlen := inv_length h
  have hi1lt : i1 < labels.length := lt_of_getElem? (h.main _ _ hi1)
  unfold addNeighbour
  cases hA : StdMap.find? b.added v2 with
  | some w =>
    obtain ⟨j, hj, rfl⟩ := h.added _ _ hA
    have hjlt := lt_of_getElem? hj
    dsimp only
    rw [addEdge_ok b.graph i1 j (by omega) (by omega)]
    refine ⟨_, labels, rfl, ?_⟩
    refine ⟨h.verts, h.added, h.main, h.which, ?_, ?_, h.mainAdded, ?_, ?_⟩
    · rintro x y (hxy | ⟨rfl, rfl⟩)
      · obtain ⟨i, w, h1, h2, h3⟩ := h.complete x y hxy
        exact ⟨i, w, h1, h2, (StdSet.mem_insert _ _ _).mpr (Or.inr h3)⟩
      · exact ⟨i1, _, hi1, hA, (StdSet.mem_insert _ _ _).mpr (Or.inl rfl)⟩
    · intro e he
      rcases (StdSet.mem_insert _ _ _).mp he with rfl | he
      · exact ⟨v1, v2, i1, _, Or.inr ⟨rfl, rfl⟩, hi1, hA, rfl⟩
      · obtain ⟨x, y, i, w, h0, h1, h2, h3⟩ := h.sound e he
        exact ⟨x, y, i, w, Or.inl h0, h1, h2, h3⟩
    · intro k hk hM
      obtain ⟨u, hu⟩ := h.addedBy k hk hM
      exact ⟨u, Or.inl hu⟩
    · intro k i w hi hw
      rw [h.glue k i w hi hw]
      constructor
      · rintro hno u (hu | ⟨rfl, rfl⟩)
        · exact hno u hu
        · exact not_lt.mpr (hle k (by rw [hi]; rfl))
      · intro hno u hu
        exact hno u (Or.inl hu)
  | none =>
    have hM2 : M v2 = none := by
      by_contra hc
      have := h.mainAdded v2 (Option.isSome_iff_ne_none.mpr hc)
      rw [hA] at this; cases this
    have hnew : (NavGraph.addVertex b.graph (pointOf vm v2)).2 = ⟨(labels.length : Int), pointOf vm v2⟩ := by
      simp [NavGraph.addVertex, hlen]
    have hg : (NavGraph.addVertex b.graph (pointOf vm v2)).1.vertices =
        b.graph.vertices ++ [⟨(labels.length : Int), pointOf vm v2⟩] := by
      simp [NavGraph.addVertex, hlen]
    have hge : (NavGraph.addVertex b.graph (pointOf vm v2)).1.edges = b.graph.edges := rfl
    have hglen : (NavGraph.addVertex b.graph (pointOf vm v2)).1.vertices.length = labels.length + 1 := by
      rw [hg, List.length_append, hlen]; rfl
    dsimp only
    rw [hnew]
    dsimp only
    rw [addEdge_ok _ i1 labels.length (by omega) (by omega)]
    refine ⟨_, labels ++ [v2], rfl, ?_⟩
    dsimp only
    have hfind : ∀ k, StdMap.find? (StdMap.insert b.added v2 ⟨(labels.length : Int), pointOf vm v2⟩) k =
        if v2 = k then some ⟨(labels.length : Int), pointOf vm v2⟩ else StdMap.find? b.added k := by
      intro k; rw [StdMap.find?_insert, hA]; rfl
    have hold : ∀ k w, StdMap.find? b.added k = some w →
        StdMap.find? (StdMap.insert b.added v2 ⟨(labels.length : Int), pointOf vm v2⟩) k = some w := by
      intro k w hw
      rw [hfind, if_neg]
      · exact hw
      · rintro rfl; rw [hA] at hw; cases hw
    refine ⟨?_, ?_, ?_, ?_, ?_, ?_, ?_, ?_, ?_⟩
    · show (NavGraph.addVertex b.graph (pointOf vm v2)).1.vertices = _
      rw [hg, h.verts]; simp [List.mapIdx_append]
    · intro k w hw
      rw [hfind] at hw
      split_ifs at hw with hk
      · subst hk; cases hw
        exact ⟨labels.length, by simp, rfl⟩
      · obtain ⟨i, h1, h2⟩ := h.added _ _ hw
        exact ⟨i, getElem?_snoc_old h1, h2⟩
    · intro k i hi
      exact getElem?_snoc_old (h.main k i hi)
    · intro i k hi
      rcases getElem?_snoc hi with hi | ⟨rfl, rfl⟩
      · rcases h.which i k hi with h1 | ⟨w, h1, h2⟩
        · exact Or.inl h1
        · exact Or.inr ⟨w, hold _ _ h1, h2⟩
      · right
        exact ⟨_, by rw [hfind, if_pos rfl], rfl⟩
    · rintro x y (hxy | ⟨rfl, rfl⟩)
      · obtain ⟨i, w, h1, h2, h3⟩ := h.complete x y hxy
        exact ⟨i, w, h1, hold _ _ h2, (StdSet.mem_insert _ _ _).mpr (Or.inr (by rw [hge]; exact h3))⟩
      · exact ⟨i1, ⟨(labels.length : Int), pointOf vm y⟩, hi1, by rw [hfind, if_pos rfl],
          (StdSet.mem_insert _ _ _).mpr (Or.inl rfl)⟩
    · intro e he
      rcases (StdSet.mem_insert _ _ _).mp he with rfl | he
      · exact ⟨v1, v2, i1, ⟨(labels.length : Int), pointOf vm v2⟩, Or.inr ⟨rfl, rfl⟩, hi1,
          by rw [hfind, if_pos rfl], rfl⟩
      · rw [hge] at he
        obtain ⟨x, y, i, w, h0, h1, h2, h3⟩ := h.sound e he
        exact ⟨x, y, i, w, Or.inl h0, h1, hold _ _ h2, h3⟩
    · intro k hk
      obtain ⟨w, hw⟩ := Option.isSome_iff_exists.mp (h.mainAdded k hk)
      rw [hold k w hw]; rfl
    · intro k hk hM
      rw [hfind] at hk
      split_ifs at hk with hk'
      · subst hk'; exact ⟨v1, Or.inr ⟨rfl, rfl⟩⟩
      · obtain ⟨u, hu⟩ := h.addedBy k hk hM
        exact ⟨u, Or.inl hu⟩
    · intro k i w hi hw
      rw [hfind] at hw
      split_ifs at hw with hk
      · subst hk; rw [hM2] at hi; cases hi
      · rw [h.glue k i w hi hw]
        constructor
        · rintro hno u (hu | ⟨rfl, rfl⟩)
          · exact hno u hu
          · exact absurd rfl hk
        · intro hno u hu
          exact hno u (Or.inl hu)

theorem inv_congr {vm : List (Int × GeoPoint)} {g : Graph GeoPoint} {A : List (Int × Vertex GeoPoint)}
    {M : Int → Option ℕ} {labels : List Int} {R R' : Int → Int → Prop} (h : Inv vm g A M labels R)
    (hR : ∀ x y, R x y ↔ R' x y) : Inv vm g A M labels R' := by
  have : R = R' := by funext x y; exact propext (hR x y)
  rw [← this]; exact h

theorem inv_neighbours {vm : List (Int × GeoPoint)} (vs : List Int) {b : Build}
    {M : Int → Option ℕ} {labels : List Int} {R : Int → Int → Prop}
    (h : Inv vm b.graph b.added M labels R) (v1 : Int) (i1 : ℕ) (hi1 : M v1 = some i1)
    (hle : ∀ k, (M k).isSome → k ≤ v1) :
    ∃ b' labels', addNeighbours vm (i1 : Int) b vs = .ok b' ∧
      Inv vm b'.graph b'.added M labels' (fun x y => R x y ∨ (x = v1 ∧ y ∈ vs)) := by
  induction vs generalizing b labels R with
  | nil => exact ⟨b, labels, rfl, inv_congr h (by simp)⟩
  | cons v2 vs ih =>
    obtain ⟨b1, l1, h1, h1'⟩ := inv_neighbour h v1 v2 i1 hi1 hle
    obtain ⟨b2, l2, h2, h2'⟩ := ih h1'
    refine ⟨b2, l2, by simp only [addNeighbours, h1, h2], inv_congr h2' ?_⟩
    intro x y
    simp only [List.mem_cons]; tauto

/-- The whole construction. -/
theorem inv_build {vm : List (Int × GeoPoint)} (adj : List (Int × List Int)) {b : Build}
    {M : Int → Option ℕ} {labels : List Int} {R : Int → Int → Prop}
    (h : Inv vm b.graph b.added M labels R) (hs : StdMap.Sorted adj)
    (hlt : ∀ k, (M k).isSome → ∀ a ∈ adj, k < a.1) :
    ∃ b' labels' M', buildGraph vm b adj = .ok b' ∧
      Inv vm b'.graph b'.added M' labels' (fun x y => R x y ∨ ∃ s, (x, s) ∈ adj ∧ y ∈ s) ∧
      ∀ k, (M' k).isSome → (M k).isSome ∨ ∃ s, (k, s) ∈ adj := by
  induction adj generalizing b M labels R with
  | nil => exact ⟨b, labels, M, rfl, inv_congr h (by simp), fun k hk => Or.inl hk⟩
  | cons a adj ih =>
    obtain ⟨v1, vs⟩ := a
    obtain ⟨hs1, hs2⟩ := List.pairwise_cons.mp hs
    obtain ⟨hm, hnew⟩ := inv_main h v1 (fun k hk => hlt k hk _ List.mem_cons_self)
    have hle : ∀ k, (Function.update M v1 (some labels.length) k).isSome → k ≤ v1 := by
      intro k hk
      by_cases hkv : k = v1
      · exact le_of_eq hkv
      · rw [Function.update_of_ne hkv] at hk
        exact le_of_lt (hlt k hk _ List.mem_cons_self)
    obtain ⟨b1, l1, h1, h1'⟩ := inv_neighbours
      (b := ⟨(NavGraph.addVertex b.graph (pointOf vm v1)).1,
        StdMap.insert b.added v1 (NavGraph.addVertex b.graph (pointOf vm v1)).2⟩) vs hm v1 labels.length
      (Function.update_self ..) hle
    obtain ⟨b2, l2, M2, h2, h2', hdom⟩ := ih h1' hs2 (by
      intro k hk a ha
      exact lt_of_le_of_lt (hle k hk) (hs1 a ha))
    refine ⟨b2, l2, M2, ?_, inv_congr h2' ?_, ?_⟩
    rotate_right
    · intro k hk
      rcases hdom k hk with hk | ⟨s, hk⟩
      · by_cases hkv : k = v1
        · subst hkv; exact Or.inr ⟨vs, List.mem_cons_self⟩
        · rw [Function.update_of_ne hkv] at hk
          exact Or.inl hk
      · exact Or.inr ⟨s, List.mem_cons_of_mem _ hk⟩
    · simp only [buildGraph]
      rw [show (NavGraph.addVertex b.graph (pointOf vm v1)).2.id = (labels.length : Int) by rw [hnew]]
      rw [h1]
      exact h2
    · intro x y
      constructor
      · rintro ((h' | ⟨rfl, h'⟩) | ⟨s, h', h''⟩)
        · exact Or.inl h'
        · exact Or.inr ⟨vs, List.mem_cons_self, h'⟩
        · exact Or.inr ⟨s, List.mem_cons_of_mem _ h', h''⟩
      · rintro (h' | ⟨s, h', h''⟩)
        · exact Or.inl (Or.inl h')
        · rcases List.mem_cons.mp h' with h' | h'
          · cases h'; exact Or.inl (Or.inr ⟨rfl, h''⟩)
          · exact Or.inr ⟨s, h', h''⟩

theorem inv_empty (vm : List (Int × GeoPoint)) :
    Inv vm NavGraph.empty [] (fun _ => none) [] (fun _ _ => False) := by
  refine ⟨rfl, ?_, ?_, ?_, ?_, ?_, ?_, ?_, ?_⟩ <;> simp [NavGraph.empty]

theorem adj_iff_mem {adj : List (Int × List Int)} (hs : StdMap.Sorted adj) (x y : Int) :
    Adj adj x y ↔ ∃ s, (x, s) ∈ adj ∧ y ∈ s := by
  unfold Adj
  constructor
  · intro h
    cases hf : StdMap.find? adj x with
    | none => rw [hf] at h; simp at h
    | some s => rw [hf] at h; exact ⟨s, StdMap.mem_of_find? hf, h⟩
  · rintro ⟨s, h1, h2⟩
    rw [StdMap.find?_of_mem hs h1]; exact h2

/-- Every graph built from adjacency sets satisfies the final invariant. -/
theorem build_spec (vm : List (Int × GeoPoint)) (adj : List (Int × List Int)) (hs : StdMap.Sorted adj) :
    ∃ b labels M, buildGraph vm ⟨NavGraph.empty, []⟩ adj = .ok b ∧
      Inv vm b.graph b.added M labels (Adj adj) ∧ ∀ k, (M k).isSome → ∃ s, (k, s) ∈ adj := by
  obtain ⟨b, l, M, h1, h2, h3⟩ := inv_build (b := ⟨NavGraph.empty, []⟩) adj (inv_empty vm) hs (by simp)
  refine ⟨b, l, M, h1, inv_congr h2 ?_, fun k hk => (h3 k hk).resolve_left (by simp)⟩
  intro x y
  rw [adj_iff_mem hs]
  simp

end Verif.MapLoad
