import Verif.Nan.HoldSpec
import Verif.Nan.SmoothProps

/-!
# C149: a place that is not a number while the user stands
-/

namespace Verif.Nan.Hold

open Verif.Nan.Ab (fitCoordinate C148_answer)

variable {α : Type} {A : Arithmetic α}

theorem dist_bad (hA : Propagates A) (a b : Pt α) (h : (A.nan a.x ∨ A.nan a.y) ∨ (A.nan b.x ∨ A.nan b.y)) : A.nan (dist A a b) := by
  unfold dist
  apply hA.sqrt
  rcases h with (h | h) | (h | h)
  · exact hA.add _ _ (Or.inl (hA.mul _ _ (Or.inl (hA.sub _ _ (Or.inl h)))))
  · exact hA.add _ _ (Or.inr (hA.mul _ _ (Or.inl (hA.sub _ _ (Or.inl h)))))
  · exact hA.add _ _ (Or.inl (hA.mul _ _ (Or.inl (hA.sub _ _ (Or.inr h)))))
  · exact hA.add _ _ (Or.inr (hA.mul _ _ (Or.inl (hA.sub _ _ (Or.inr h)))))

theorem snap_bad (hA : Propagates A) (c : Config α) (m : Map α) (q : Place α) (h : BadPlace A q) : snap A c m q = q := by
  unfold snap
  split_ifs with h1
  · dsimp only
    rw [if_neg]
    rintro ⟨h2, -⟩
    exact h2 (dist_bad hA ⟨q.x, q.y⟩ _ (Or.inl h))
  · rfl

theorem fit_bad (hA : Propagates A) {floor : α → α} (hfl : ∀ a, A.nan a → A.nan (floor a)) (m : Map α) (q : Place α) (h : BadPlace A q) :
    BadPlace A { q with
      x := fitCoordinate A floor m.minCorner.x m.maxCorner.x q.x
      y := fitCoordinate A floor m.minCorner.y m.maxCorner.y q.y } := by
  rcases h with h | h
  · exact Or.inl (C148_answer hA floor hfl _ _ _ h)
  · exact Or.inr (C148_answer hA floor hfl _ _ _ h)

theorem tell_bad (hA : Propagates A) {floor : α → α} (hfl : ∀ a, A.nan a → A.nan (floor a)) (c : Config α) (hc : c.useStops = true)
    (m : Map α) (s : State α) (k : Call α) (since : Int) (h0 : 0 < since) (hs : s.stepTs = since) (hb : BadPlace A s.last)
    (hk : Stands c since k) :
    BadPlace A (tell A floor c m s k).1 ∧ BadPlace A (tell A floor c m s k).2.last ∧ (tell A floor c m s k).2.stepTs = since := by
  obtain ⟨hk1, hk2⟩ := hk
  have e : (if k.step > 0 then { s with stepTs := k.step } else s) = s := by
    split_ifs with h
    · rcases hk1 with h1 | h1
      · rw [h1, ← hs]
      · omega
    · rfl
  have e2 : takeOver A c s k = { s with last := { s.last with ts := k.ts } } := by
    unfold takeOver
    dsimp only
    rw [if_pos ⟨hc, by omega, by omega⟩, if_neg]
    rintro ⟨-, h⟩
    exact hA.lt _ _ (Or.inl (dist_bad hA ⟨s.last.x, s.last.y⟩ _ (Or.inl hb))) h
  have hb' : BadPlace A { s.last with ts := k.ts } := hb
  unfold tell
  dsimp only
  rw [e, e2]
  dsimp only
  rw [snap_bad hA c m _ hb']
  exact ⟨fit_bad hA hfl m _ hb', fit_bad hA hfl m _ hb', hs⟩

theorem run_bad (hA : Propagates A) {floor : α → α} (hfl : ∀ a, A.nan a → A.nan (floor a)) (c : Config α) (hc : c.useStops = true)
    (m : Map α) (since : Int) (h0 : 0 < since) (ks : List (Call α)) : ∀ (s : State α), s.stepTs = since → BadPlace A s.last →
      (∀ k ∈ ks, Stands c since k) → ∀ p ∈ (run A floor c m s ks).1, BadPlace A p := by
  induction ks with
  | nil => intro s _ _ _ p hp; simp [run] at hp
  | cons k ks ih =>
    intro s hs hb hk p hp
    obtain ⟨k1, k2, k3⟩ := tell_bad hA hfl c hc m s k since h0 hs hb (hk k (by simp))
    unfold run at hp
    dsimp only at hp
    rcases List.mem_cons.mp hp with rfl | hp
    · exact k1
    · exact ih _ k3 k2 (fun k' h' => hk k' (by simp [h'])) p hp

/-- **C149.** With the detection of stops: if the place told at some call is not a number, then every place told is no number while the
user stands, however many calls follow, wherever the places of these calls are, with and without the projection to the graph. -/
theorem C149_stuck (hA : Propagates A) (floor : α → α) (hfl : ∀ a, A.nan a → A.nan (floor a)) (c : Config α) (hc : c.useStops = true)
    (m : Map α) (before : List (Call α)) (k : Call α) (h0 : 0 < k.step)
    (hbad : BadPlace A (tell A floor c m (run A floor c m (init A) before).2 k).1) (ks : List (Call α))
    (hks : ∀ k' ∈ ks, Stands c k.step k') :
    ∀ p ∈ (run A floor c m (tell A floor c m (run A floor c m (init A) before).2 k).2 ks).1, BadPlace A p := by
  apply run_bad hA hfl c hc m k.step h0 ks _ _ hbad hks
  generalize (run A floor c m (init A) before).2 = s
  unfold tell takeOver
  dsimp only
  rw [if_pos h0]
  split_ifs <;> rfl

/-- **C149, the beginning.** A place that is not a number is told as it is while the user walks or where stops are not detected. -/
theorem C149_told (hA : Propagates A) (floor : α → α) (hfl : ∀ a, A.nan a → A.nan (floor a)) (c : Config α) (m : Map α) (s : State α)
    (k : Call α) (hk : c.useStops = false ∨ 0 < k.step ∧ k.ts - k.step < c.stopDetectionTime) (hb : BadPlace A k.place) :
    BadPlace A (tell A floor c m s k).1 := by
  have hn : ¬ (c.useStops = true ∧ (if k.step > 0 then { s with stepTs := k.step } else s).stepTs > 0 ∧
      k.ts - (if k.step > 0 then { s with stepTs := k.step } else s).stepTs ≥ c.stopDetectionTime) := by
    rintro ⟨h1, h2, h3⟩
    rcases hk with hk | ⟨h4, h5⟩
    · rw [hk] at h1
      exact absurd h1 (by decide)
    · rw [if_pos h4] at h3
      exact absurd h3 (by dsimp only; omega)
  have hb' : BadPlace A { k.place with ts := k.ts, deviation := k.indoorDeviation } := hb
  unfold tell takeOver
  dsimp only
  rw [if_neg hn]
  dsimp only
  rw [snap_bad hA c m _ hb']
  exact fit_bad hA hfl m _ hb'

/-- **C149, the way back.** A new step ends it: the place told then is the one a new postprocessor would tell. -/
theorem C149_back (floor : α → α) (c : Config α) (m : Map α) (s : State α) (k : Call α) (h0 : 0 < k.step)
    (hk : k.ts - k.step < c.stopDetectionTime) : (tell A floor c m s k).1 = (tell A floor c m (init A) k).1 := by
  have key : ∀ s : State α, (takeOver A c { s with stepTs := k.step } k).last =
      { k.place with ts := k.ts, deviation := k.indoorDeviation } := by
    intro s
    unfold takeOver
    dsimp only
    rw [if_neg]
    rintro ⟨-, -, h⟩
    omega
  unfold tell
  dsimp only
  rw [if_pos h0, if_pos h0, key, key]

/-! ## Numbers -/

/-- The settings as those of this model. -/
noncomputable def ofSettings (cs : CommonSettings) : Config (Option ℝ) where
  useStops := cs.useStops
  stopDetectionTime := Post.toLongLong (1000 * cs.stopDetectionTime)
  stopUpdateTime := Post.toLongLong (1000 * cs.stopUpdateTime)
  threshold := some cs.useStopsDistanceThresholdM
  useGraph := cs.useGraphProjection
  graphDistance := some cs.graphProjDist

/-- The ends of the edges of a graph, where all of them exist. -/
def Ends (g : NavGraph.Graph Verif.Geo.XYPoint) (es : List (Verif.Geo.XYPoint × Verif.Geo.XYPoint)) : Prop :=
  List.Forall₂ (fun e uv => ∃ u v, NavGraph.getVertex g (ofLex e).1 = some u ∧ NavGraph.getVertex g (ofLex e).2 = some v ∧
    uv = (u.point, v.point)) g.edges es

/-- A map of numbers. -/
def ofMap (b : Levels.Box) (es : List (Verif.Geo.XYPoint × Verif.Geo.XYPoint)) : Map (Option ℝ) :=
  ⟨es.map fun e => (ofPoint e.1, ofPoint e.2), ofPoint b.minCorner, ofPoint b.maxCorner⟩

/-- `std::floor` for numbers. -/
noncomputable def floorOf (a : Option ℝ) : Option ℝ := a.map fun x => (⌊x⌋ : ℝ)

/-- The members as those of this model. -/
def ofMembers (s : Post.PostState) : State (Option ℝ) := ⟨ofPlace s.lastOut, s.lastExtractionTs, s.lastStepTs⟩

theorem e_dist (a b : Verif.Geo.XYPoint) : dist exact (ofPoint a) (ofPoint b) = some (Geometry.getDist a.x a.y b.x b.y) := by
  unfold dist ofPoint
  simp only [e_sub, e_mul, e_add]
  rw [e_sqrt (by nlinarith [mul_self_nonneg (a.x - b.x), mul_self_nonneg (a.y - b.y)])]
  rfl

theorem e_projection (a b o : Verif.Geo.XYPoint) : projection exact (ofPoint a) (ofPoint b) (ofPoint o) =
    (some (Geometry.getProjection a.x a.y b.x b.y o.x o.y).1, ofPoint (Geometry.getProjection a.x a.y b.x b.y o.x o.y).2) := by
  unfold projection Geometry.getProjection ofPoint
  simp only [e_sub, e_mul, e_add, e_lit, e_lt]
  by_cases h : (b.x - a.x) * (b.x - a.x) + (b.y - a.y) * (b.y - a.y) > Geometry.eps
  · have h0 : (b.x - a.x) * (b.x - a.x) + (b.y - a.y) * (b.y - a.y) ≠ 0 := by
      have : (0 : ℝ) < Geometry.eps := by norm_num [Geometry.eps]
      exact (this.trans h).ne'
    rw [if_pos h, if_pos h, e_div _ h0, divide_eq h0]
    rfl
  · rw [if_neg h, if_neg h]
    rfl

theorem e_edge (p : Geometry.LocationPoint) (u v : Verif.Geo.XYPoint) : edgePoint exact (ofPoint u) (ofPoint v) ⟨some p.x, some p.y⟩ =
    ⟨some (NavGraph.edgeProjection p u v).x, some (NavGraph.edgeProjection p u v).y⟩ ∧ (NavGraph.edgeProjection p u v).level = p.level := by
  have h := e_projection u v ⟨p.x, p.y⟩
  have e : (⟨some p.x, some p.y⟩ : Pt (Option ℝ)) = ofPoint ⟨p.x, p.y⟩ := rfl
  rw [e]
  unfold edgePoint NavGraph.edgeProjection
  dsimp only
  rw [h]
  simp only [e_lit, e_lt, gt_iff_lt]
  split_ifs <;> exact ⟨rfl, rfl⟩

theorem nearest_first (p u v p0 : Pt α) (es : List (Pt α × Pt α)) : nearest A p ((u, v) :: es) p0 none =
    nearest A p es (edgePoint A u v p) (some (dist A p (edgePoint A u v p))) := by
  rw [nearest.eq_def]
  simp

open Classical in
theorem nearest_next (p u v p0 : Pt α) (d : α) (es : List (Pt α × Pt α)) : nearest A p ((u, v) :: es) p0 (some d) =
    if A.nan d ∨ A.lt (dist A p (edgePoint A u v p)) d then
      nearest A p es (edgePoint A u v p) (some (dist A p (edgePoint A u v p))) else nearest A p es p0 (some d) := by
  rw [nearest.eq_def]
  dsimp only
  congr

theorem e_nearest (g : NavGraph.Graph Verif.Geo.XYPoint) (p : Geometry.LocationPoint) (ls : List (Int ×ₗ Int))
    (es : List (Verif.Geo.XYPoint × Verif.Geo.XYPoint))
    (h : List.Forall₂ (fun e uv => ∃ u v, NavGraph.getVertex g (ofLex e).1 = some u ∧ NavGraph.getVertex g (ofLex e).2 = some v ∧
      uv = (u.point, v.point)) ls es) : ∀ (p0 : Geometry.LocationPoint) (d0 : Option ℝ), p0.level = p.level →
    ∃ r, NavGraph.projLoop g p ls (p0, d0) = some r ∧ r.1.level = p.level ∧
      nearest exact ⟨some p.x, some p.y⟩ (es.map fun e => (ofPoint e.1, ofPoint e.2)) ⟨some p0.x, some p0.y⟩ (d0.map some) =
        ⟨some r.1.x, some r.1.y⟩ := by
  induction h with
  | nil => intro p0 d0 hl; exact ⟨(p0, d0), rfl, hl, rfl⟩
  | cons hd _ ih =>
    intro p0 d0 hl
    obtain ⟨u, v, h1, h2, rfl⟩ := hd
    obtain ⟨e1, e2⟩ := e_edge p u.point v.point
    rw [NavGraph.projLoop, h1, h2]
    dsimp only
    rw [List.map_cons]
    have ed : dist exact ⟨some p.x, some p.y⟩ ⟨some (NavGraph.edgeProjection p u.point v.point).x, some (NavGraph.edgeProjection p u.point v.point).y⟩ =
      some (Geometry.getDist p.x p.y (NavGraph.edgeProjection p u.point v.point).x (NavGraph.edgeProjection p u.point v.point).y) :=
      e_dist ⟨p.x, p.y⟩ ⟨_, _⟩
    cases d0 with
    | none =>
      obtain ⟨r, k1, k2, k3⟩ := ih _ (some (Geometry.getDist p.x p.y (NavGraph.edgeProjection p u.point v.point).x
        (NavGraph.edgeProjection p u.point v.point).y)) e2
      refine ⟨r, k1, k2, ?_⟩
      rw [← k3, Option.map_none, nearest_first, e1, ed]
      rfl
    | some d =>
      rw [Option.map_some, nearest_next, e1, ed]
      simp only [nan_iff, e_lt, reduceCtorEq, false_or]
      split_ifs with hlt
      · obtain ⟨r, k1, k2, k3⟩ := ih _ (some (Geometry.getDist p.x p.y (NavGraph.edgeProjection p u.point v.point).x
          (NavGraph.edgeProjection p u.point v.point).y)) e2
        exact ⟨r, k1, k2, k3⟩
      · obtain ⟨r, k1, k2, k3⟩ := ih p0 (some d) hl
        exact ⟨r, k1, k2, k3⟩

theorem e_snap (cs : CommonSettings) (level : Levels.Level) (es : List (Verif.Geo.XYPoint × Verif.Geo.XYPoint)) (h : Ends level.graph es)
    (q : Position) : ∃ r, Post.snapToGraph cs level q = some r ∧
      snap exact (ofSettings cs) (ofMap level.geometry.boundingBox es) (ofPlace q) = ofPlace r := by
  unfold Post.snapToGraph snap
  by_cases hg : cs.useGraphProjection = true
  · have hg' : (ofSettings cs).useGraph = true := hg
    rw [if_pos hg, if_pos hg']
    dsimp only
    obtain ⟨r, k1, k2, k3⟩ := e_nearest level.graph ⟨q.levelId, q.x, q.y⟩ level.graph.edges es h ⟨q.levelId, q.x, q.y⟩ none rfl
    have k3' : nearest exact ⟨(ofPlace q).x, (ofPlace q).y⟩ (ofMap level.geometry.boundingBox es).edges ⟨(ofPlace q).x, (ofPlace q).y⟩ none =
      ⟨some r.1.x, some r.1.y⟩ := k3
    have e1 : NavGraph.projectOnGraph level.graph ⟨q.levelId, q.x, q.y⟩ = some r.1 := by
      unfold NavGraph.projectOnGraph
      rw [k1]
      rfl
    rw [e1, k3']
    dsimp only
    unfold Geometry.getDistLP
    rw [if_pos k2.symm]
    dsimp only
    have ed : dist exact ⟨(ofPlace q).x, (ofPlace q).y⟩ ⟨some r.1.x, some r.1.y⟩ = some (Geometry.getDist q.x q.y r.1.x r.1.y) :=
      e_dist ⟨q.x, q.y⟩ ⟨_, _⟩
    rw [ed]
    refine ⟨_, rfl, ?_⟩
    have hgd : (ofSettings cs).graphDistance = some cs.graphProjDist := rfl
    rw [hgd]
    simp only [nan_iff, e_lt, reduceCtorEq, not_false_eq_true, true_and]
    split_ifs <;> rfl
  · have hg' : ¬ (ofSettings cs).useGraph = true := hg
    rw [if_neg hg, if_neg hg']
    exact ⟨q, rfl, rfl⟩

theorem e_fit (lo hi x : ℝ) : fitCoordinate exact floorOf (some lo) (some hi) (some x) = some (Post.fitCoordinate lo hi x) := by
  have h1 : Ab.maxOf exact (some x) (some lo) = some (max x lo) := by
    unfold Ab.maxOf
    simp only [e_lt]
    split_ifs with h
    · rw [max_eq_right h.le]
    · rw [max_eq_left (not_lt.mp h)]
  have h2 : Ab.minOf exact (some (max x lo)) (some hi) = some (min (max x lo) hi) := by
    unfold Ab.minOf
    simp only [e_lt]
    split_ifs with h
    · rw [min_eq_right h.le]
    · rw [min_eq_left (not_lt.mp h)]
  unfold Ab.fitCoordinate Post.fitCoordinate
  rw [h1, h2, e_lit, e_mul]
  exact e_div _ (by norm_num)

/-- **C149, the start.** A new postprocessor is the one of the other claims. -/
theorem C149_start (cs : CommonSettings) : ofMembers (Post.postInit cs) = init exact := by
  unfold ofMembers Post.postInit init noPlace
  simp only [e_lit]
  unfold ofPlace Position.default
  rfl

/-- **C149, numbers.** For places that are numbers and a graph all of whose edges have their ends this is the postprocessor of the other
claims without smoothing. -/
theorem C149_numbers (cs : CommonSettings) (hs : cs.useSmoothing = false) (ht : cs.useTimeSmoothing = false) (allowed : ℝ → ℝ → Prop)
    (s : Post.PostState) (fused : Position) (ts step : Int) (level : Levels.Level)
    (es : List (Verif.Geo.XYPoint × Verif.Geo.XYPoint)) (h : Ends level.graph es) (h1 : fused.isEmpty = false)
    (h2 : Post.isInsideMap cs fused level) (h3 : ts - fused.ts < Post.toLongLong (1000 * cs.deadReckoningTime)) :
    ∃ out s', Post.getProcessedPosition cs allowed s fused ts step level = some (out, s') ∧
      tell exact floorOf (ofSettings cs) (ofMap level.geometry.boundingBox es) (ofMembers s)
        ⟨ofPlace fused, ts, step, some s.indoorPos.deviationM⟩ = (ofPlace out, ofMembers s') := by
  unfold Post.getProcessedPosition tell
  dsimp only
  rw [if_neg (by rw [h1]; decide), if_neg (not_not.mpr h2), if_neg (not_le.mpr h3)]
  have e0 : (if step > 0 then { ofMembers s with stepTs := step } else ofMembers s) =
      ofMembers (if step > 0 then { s with lastStepTs := step } else s) := by
    split_ifs <;> rfl
  have e1 : some s.indoorPos.deviationM = some (if step > 0 then { s with lastStepTs := step } else s).indoorPos.deviationM := by
    split_ifs <;> rfl
  rw [e0, e1]
  generalize (if step > 0 then { s with lastStepTs := step } else s) = s
  have e2 : Post.smoothing cs allowed s fused ts = some (fused, s) := by
    unfold Post.smoothing
    simp [hs, ht]
  rw [e2, Option.bind_some]
  have e3 : takeOver exact (ofSettings cs) (ofMembers s) ⟨ofPlace fused, ts, step, some s.indoorPos.deviationM⟩ =
      ofMembers (Post.takeOver cs s fused ts) := by
    have ed : dist exact ⟨(ofMembers s).last.x, (ofMembers s).last.y⟩ ⟨(ofPlace fused).x, (ofPlace fused).y⟩ =
      some (Geometry.getDist s.lastOut.x s.lastOut.y fused.x fused.y) := e_dist ⟨_, _⟩ ⟨_, _⟩
    unfold takeOver Post.takeOver
    dsimp only
    rw [ed]
    have hc : ((ofSettings cs).useStops = true ∧ (ofMembers s).stepTs > 0 ∧ ts - (ofMembers s).stepTs ≥ (ofSettings cs).stopDetectionTime) ↔
      (cs.useStops = true ∧ Post.stopDetected cs s ts) := Iff.rfl
    by_cases hcc : cs.useStops = true ∧ Post.stopDetected cs s ts
    · rw [if_pos (hc.mpr hcc), if_pos hcc]
      have hd : (ts - (ofMembers s).extractionTs > (ofSettings cs).stopUpdateTime ∧
          exact.lt (some (Geometry.getDist s.lastOut.x s.lastOut.y fused.x fused.y)) (ofSettings cs).threshold) ↔
        (ts - s.lastExtractionTs > Post.toLongLong (1000 * cs.stopUpdateTime) ∧
          Geometry.getDist s.lastOut.x s.lastOut.y fused.x fused.y < cs.useStopsDistanceThresholdM) := Iff.rfl
      by_cases hdd : ts - s.lastExtractionTs > Post.toLongLong (1000 * cs.stopUpdateTime) ∧
          Geometry.getDist s.lastOut.x s.lastOut.y fused.x fused.y < cs.useStopsDistanceThresholdM
      · rw [if_pos (hd.mpr hdd), if_pos hdd]
        rfl
      · rw [if_neg (fun k => hdd (hd.mp k)), if_neg hdd]
        rfl
    · rw [if_neg (fun k => hcc (hc.mp k)), if_neg hcc]
      rfl
  rw [e3]
  obtain ⟨r, k1, k2⟩ := e_snap cs level es h (Post.takeOver cs s fused ts).lastOut
  have k2' : snap exact (ofSettings cs) (ofMap level.geometry.boundingBox es) (ofMembers (Post.takeOver cs s fused ts)).last = ofPlace r := k2
  rw [k1, k2']
  refine ⟨_, _, rfl, ?_⟩
  have ex := e_fit level.geometry.boundingBox.minCorner.x level.geometry.boundingBox.maxCorner.x r.x
  have ey := e_fit level.geometry.boundingBox.minCorner.y level.geometry.boundingBox.maxCorner.y r.y
  unfold Post.fitInBox ofMembers ofPlace ofMap ofPoint
  dsimp only
  rw [ex, ey]

/-! ## An example -/

/-- Stops are found after three seconds and held places renewed after one. -/
noncomputable def exC : Config (Option ℝ) := ⟨true, 3000, 1000, some 10, false, some 0⟩

/-- A map without a graph. -/
def exM : Map (Option ℝ) := ⟨[], ⟨some 0, some 0⟩, ⟨some 100, some 100⟩⟩

/-- A call on a floor. -/
def call (x : Option ℝ) (ts step : Int) : Call (Option ℝ) := ⟨⟨x, some 0, "1", some 1, ts, false⟩, ts, step, some 1⟩

theorem floor_bad (a : Option ℝ) (h : exact.nan a) : exact.nan (floorOf a) := by
  rw [nan_iff] at h ⊢
  rw [h]
  rfl

theorem ex_fit (x : ℕ) (hx : x ≤ 100) : fitCoordinate exact floorOf (some 0) (some 100) (some (x : ℝ)) = some (x : ℝ) := by
  have e := e_fit 0 100 x
  rw [e]
  have h1 : max (x : ℝ) 0 = x := max_eq_left (Nat.cast_nonneg _)
  have h2 : min (x : ℝ) 100 = x := min_eq_left (by exact_mod_cast hx)
  have h3 : ⌊(x : ℝ) * 100⌋ = (x : Int) * 100 := by
    have : (x : ℝ) * 100 = (((x : Int) * 100 : Int) : ℝ) := by push_cast; ring
    rw [this, Int.floor_intCast]
  unfold Post.fitCoordinate
  rw [h1, h2, h3]
  push_cast
  rw [mul_div_assoc]
  norm_num

/-- **C149, an example.** The user makes a step, and at that time the place is not a number. Three and five seconds later the places are
good: those told are still no numbers. -/
theorem C149_example :
    (∀ p ∈ (run exact floorOf exC exM (init exact) [call none 1000 1000, call (some 2) 4000 1000, call (some 3) 6000 1000]).1, BadPlace exact p) ∧
    (run exact floorOf exC exM (init exact) [call none 1000 1000, call (some 2) 4000 1000, call (some 3) 6000 1000]).1.length = 3 ∧
    (run exact floorOf exC exM (init exact) [call (some 1) 1000 1000, call (some 2) 4000 1000, call (some 3) 6000 1000]).1.map
      (fun p => (p.x, p.y)) = [(some 1, some 0), (some 2, some 0), (some 3, some 0)] := by
  refine ⟨?_, rfl, ?_⟩
  · have h1 := C149_told exact_propagates floorOf floor_bad exC exM (init exact) (call none 1000 1000)
      (Or.inr ⟨by simp [call], by simp [call, exC]⟩) (Or.inl rfl)
    have h2 := C149_stuck exact_propagates floorOf floor_bad exC rfl exM [] (call none 1000 1000) (by simp [call]) h1
      [call (some 2) 4000 1000, call (some 3) 6000 1000] (by
        intro k hk
        rcases List.mem_cons.mp hk with rfl | hk
        · exact ⟨Or.inl rfl, by simp [call, exC]⟩
        · rw [List.mem_singleton.mp hk]
          exact ⟨Or.inl rfl, by simp [call, exC]⟩)
    intro p hp
    rw [run] at hp
    dsimp only at hp
    rcases List.mem_cons.mp hp with rfl | hp
    · exact h1
    · exact h2 p hp
  · have f0 := ex_fit 0 (by norm_num)
    have f1 := ex_fit 1 (by norm_num)
    have f2 := ex_fit 2 (by norm_num)
    have f3 := ex_fit 3 (by norm_num)
    push_cast at f0 f1 f2 f3
    have s1 : tell exact floorOf exC exM (init exact) (call (some 1) 1000 1000) =
        (⟨some 1, some 0, "1", some 1, 1000, false⟩, ⟨⟨some 1, some 0, "1", some 1, 1000, false⟩, 0, 1000⟩) := by
      simp [tell, takeOver, snap, call, exC, exM, init, f0, f1]
    have s2 : tell exact floorOf exC exM ⟨⟨some 1, some 0, "1", some 1, 1000, false⟩, 0, 1000⟩ (call (some 2) 4000 1000) =
        (⟨some 2, some 0, "1", some 1, 4000, false⟩, ⟨⟨some 2, some 0, "1", some 1, 4000, false⟩, 4000, 1000⟩) := by
      have hd : exact.lt (dist exact ⟨some 1, some 0⟩ ⟨some 2, some 0⟩) (some 10) := by
        have := e_dist ⟨1, 0⟩ ⟨2, 0⟩
        unfold ofPoint at this
        rw [this, e_lt]
        norm_num [Geometry.getDist]
      simp [tell, takeOver, snap, call, exC, exM, f0, f2, hd]
    have s3 : tell exact floorOf exC exM ⟨⟨some 2, some 0, "1", some 1, 4000, false⟩, 4000, 1000⟩ (call (some 3) 6000 1000) =
        (⟨some 3, some 0, "1", some 1, 6000, false⟩, ⟨⟨some 3, some 0, "1", some 1, 6000, false⟩, 6000, 1000⟩) := by
      have hd : exact.lt (dist exact ⟨some 2, some 0⟩ ⟨some 3, some 0⟩) (some 10) := by
        have := e_dist ⟨2, 0⟩ ⟨3, 0⟩
        unfold ofPoint at this
        rw [this, e_lt]
        norm_num [Geometry.getDist]
      simp [tell, takeOver, snap, call, exC, exM, f0, f3, hd]
    simp only [run, s1, s2, s3, List.map_cons, List.map_nil]

end Verif.Nan.Hold
