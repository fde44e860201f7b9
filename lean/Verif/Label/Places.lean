import Verif.Label.Lemmas

/-!
# Lemmas for C153: the estimators of the place and the post-processor
-/

namespace Verif.Label

open Verif.Levels Verif.Nav
open Verif.Geo (XYPoint GeoPoint)
open Verif.Knn (Result)

variable {f : String → String}

/-! ## Estimators of the place -/

theorem zone_label (hf : Renaming f) {A A' B B' : List (String × ℝ)} (hA : SameEntries f A A') (hB : SameEntries f B B') (l : Level)
    (ts : Int) (msr : List RadioData) : Estim.zonePosition A' B' (relabel f l) ts msr =
      ((Estim.zonePosition A B l ts msr).1, ren f (Estim.zonePosition A B l ts msr).2) := by
  unfold Estim.zonePosition
  have h1 : getLevelRadioMeasurements RadioData.id (relabel f l) msr = getLevelRadioMeasurements RadioData.id l msr := rfl
  have h2 : (relabel f l).id = f l.id := rfl
  rw [h1, h2, hA, hB]
  split_ifs
  · rw [ren_default hf]
  · cases Estim.strongest (getLevelRadioMeasurements RadioData.id l msr) with
    | none =>
      dsimp only
      rw [ren_default hf]
    | some m => rfl

/-- The constants of the estimator by fingerprints. -/
structure SameKnn (f : String → String) (a a' : Knn.Cfg) : Prop where
  useTriangles : a'.useTriangles = a.useTriangles
  useDiffMode : a'.useDiffMode = a.useDiffMode
  k : a'.k = a.k
  minMsr : a'.minMsr = a.minMsr
  sort : a'.sort = a.sort
  triangles : SameEntries f a.triangles a'.triangles
  refTransmitters : SameEntries f a.refTransmitters a'.refTransmitters
  radiomaps : SameEntries f a.radiomaps a'.radiomaps

theorem knn_label {k k' : Knn.Cfg} (h : SameKnn f k k') (p : Position) (l : Level) (ts : Int) (msr : List RadioData) :
    Alike (fun r r' => r' = (r.1, ren f r.2)) (Knn.calculatePosition k p l ts msr) (Knn.calculatePosition k' (ren f p) (relabel f l) ts msr) := by
  unfold Knn.calculatePosition
  have h2 : (relabel f l).id = f l.id := rfl
  have h3 : (relabel f l).radiomap = l.radiomap := rfl
  rw [h2, h3, h.refTransmitters, h.radiomaps, h.triangles, h.useTriangles, h.useDiffMode, h.k, h.minMsr, h.sort]
  by_cases h0 : msr.isEmpty = true
  · rw [if_pos h0, if_pos h0]
    exact rfl
  rw [if_neg h0, if_neg h0]
  cases StdMap.find? k.refTransmitters l.id with
  | none => exact trivial
  | some ids =>
    dsimp only
    by_cases h1 : (Knn.getWhitelistedMeasurements ids msr).length < k.minMsr
    · rw [if_pos h1, if_pos h1]
      exact rfl
    rw [if_neg h1, if_neg h1]
    cases StdMap.find? k.radiomaps l.id with
    | none => exact trivial
    | some sm =>
      dsimp only
      cases k.useTriangles with
      | false =>
        simp only [Bool.false_eq_true, if_false]
        cases Knn.calcKHeaviest k.sort l.radiomap (Knn.calcRpWeightsKnn sm (Knn.getWhitelistedMeasurements ids msr) k.useDiffMode) k.k with
        | none => exact trivial
        | some q => exact rfl
      | true =>
        simp only [if_true]
        cases StdMap.find? k.triangles l.id with
        | none => exact rfl
        | some ts =>
          dsimp only
          by_cases h4 : ts.isEmpty = true
          · rw [if_pos h4, if_pos h4]
            exact rfl
          rw [if_neg h4, if_neg h4]
          cases Knn.calcPositionInTriangle ts l.radiomap
            (Knn.calcRpWeightsKnn sm (Knn.getWhitelistedMeasurements ids msr) k.useDiffMode) with
          | undefined => exact trivial
          | throws => exact trivial
          | ok q => exact rfl

/-! ## Tables made by the constructor -/

theorem fold_label {α α' : Type} {R : α → α' → Prop} (g : α → Level → α) (g' : α' → Level → α')
    (h : ∀ a a' l, R a a' → R (g a l) (g' a' (relabel f l))) (ls : List Level) {a : α} {a' : α'} (ha : R a a') :
    R (ls.foldl g a) ((ls.map (relabel f)).foldl g' a') := by
  induction ls generalizing a a' with
  | nil => exact ha
  | cons l ls ih => exact ih (h _ _ l ha)

theorem maps_label (hf : Renaming f) {c c' : LevelCollector} (h : SameMap f c c') :
    SameEntries f (Knn.getLevelsRadiomaps c) (Knn.getLevelsRadiomaps c') := by
  unfold Knn.getLevelsRadiomaps
  rw [h.levels]
  refine fold_label (R := SameEntries f) _ _ (fun a a' l ha => ?_) _ same_nil
  exact same_set hf ha l.id (Knn.levelRadiomap l)

theorem refs_label (hf : Renaming f) {c c' : LevelCollector} (h : SameMap f c c') :
    SameEntries f (Knn.getLevelReferenceTransmittersMap c) (Knn.getLevelReferenceTransmittersMap c') := by
  unfold Knn.getLevelReferenceTransmittersMap
  rw [h.levels]
  refine fold_label (R := SameEntries f) _ _ (fun a a' l ha => ?_) _ same_nil
  have h2 : (relabel f l).id = f l.id := rfl
  have h3 : (relabel f l).radiomap = l.radiomap := rfl
  rw [h2, h3]
  generalize l.radiomap.referencePoints = rps
  induction rps generalizing a a' with
  | nil => exact ha
  | cons rp rps ih =>
    refine ih _ _ ?_
    unfold Knn.addRpTransmitters
    dsimp only
    rw [ha]
    split_ifs
    · exact ha
    · cases StdMap.find? a l.id with
      | none => exact same_insert hf ha _ _
      | some old => exact same_set hf ha _ _

theorem triangles_label (hf : Renaming f) {c c' : LevelCollector} (h : SameMap f c c') (s : Triang.Sorts) :
    SameEntries f (Knn.triangulate s c) (Knn.triangulate s c') := by
  unfold Knn.triangulate
  rw [h.levels]
  have key : ∀ (ls : List Level) (m m' : List (String × List Knn.RpTriangle)), SameEntries f m m' →
      SameEntries f (Knn.triangulateFrom s ls m) (Knn.triangulateFrom s (ls.map (relabel f)) m') := by
    intro ls
    induction ls with
    | nil => exact fun m m' hm => hm
    | cons l ls ih =>
      intro m m' hm
      rw [List.map_cons]
      unfold Knn.triangulateFrom
      have h2 : (relabel f l).id = f l.id := rfl
      have h3 : (relabel f l).radiomap = l.radiomap := rfl
      have h4 : (relabel f l).geometry = l.geometry := rfl
      rw [h2, h3, h4]
      dsimp only
      split_ifs
      · exact hm
      · exact ih _ _ (same_insert hf hm _ _)
      · exact ih _ _ hm
  exact key _ _ _ same_nil

theorem params_label (hf : Renaming f) {c c' : LevelCollector} (h : SameMap f c c') {sets sets' : List (String × Estim.LevelSettings)}
    (hs : SameEntries f sets sets') :
    (Estim.zoneParams sets c = none ∧ Estim.zoneParams sets' c' = none) ∨
      ∃ ab ab', Estim.zoneParams sets c = some ab ∧ Estim.zoneParams sets' c' = some ab' ∧ SameEntries f ab.1 ab'.1 ∧
        SameEntries f ab.2 ab'.2 := by
  unfold Estim.zoneParams
  rw [h.levels]
  have key : ∀ (ls : List Level) (ab ab' : List (String × ℝ) × List (String × ℝ)), SameEntries f ab.1 ab'.1 → SameEntries f ab.2 ab'.2 →
      (ls.foldlM (fun (ab : List (String × ℝ) × List (String × ℝ)) l => match StdMap.find? sets l.id with
        | none => none
        | some s => some (StdMap.set ab.1 l.id s.normalModeA, StdMap.set ab.2 l.id s.normalModeB)) ab = none ∧
       (ls.map (relabel f)).foldlM (fun (ab : List (String × ℝ) × List (String × ℝ)) l => match StdMap.find? sets' l.id with
        | none => none
        | some s => some (StdMap.set ab.1 l.id s.normalModeA, StdMap.set ab.2 l.id s.normalModeB)) ab' = none) ∨
      ∃ r r', ls.foldlM (fun (ab : List (String × ℝ) × List (String × ℝ)) l => match StdMap.find? sets l.id with
        | none => none
        | some s => some (StdMap.set ab.1 l.id s.normalModeA, StdMap.set ab.2 l.id s.normalModeB)) ab = some r ∧
       (ls.map (relabel f)).foldlM (fun (ab : List (String × ℝ) × List (String × ℝ)) l => match StdMap.find? sets' l.id with
        | none => none
        | some s => some (StdMap.set ab.1 l.id s.normalModeA, StdMap.set ab.2 l.id s.normalModeB)) ab' = some r' ∧
        SameEntries f r.1 r'.1 ∧ SameEntries f r.2 r'.2 := by
    intro ls
    induction ls with
    | nil => exact fun ab ab' h1 h2 => .inr ⟨ab, ab', rfl, rfl, h1, h2⟩
    | cons l ls ih =>
      intro ab ab' h1 h2
      rw [List.map_cons, List.foldlM_cons, List.foldlM_cons]
      have hid : (relabel f l).id = f l.id := rfl
      rw [hid, hs]
      cases StdMap.find? sets l.id with
      | none => exact .inl ⟨rfl, rfl⟩
      | some s => exact ih _ _ (same_set hf h1 _ _) (same_set hf h2 _ _)
  exact key _ _ _ same_nil same_nil

/-! ## The post-processor -/

/-- A smoother with the new names. -/
def renS (f : String → String) : Post.Smoother → Post.Smoother
  | .ab P s => .ab P { s with position := ren f s.position }
  | .ls P ub s => .ls P ub s

/-- The post-processor with the new names. -/
def renP (f : String → String) (s : Post.PostState) : Post.PostState :=
  { s with
    time := ⟨ren f s.time.prev, ren f s.time.next⟩
    smoother := renS f s.smoother
    indoorPos := ren f s.indoorPos
    outdoorPos := ren f s.outdoorPos
    lastOut := ren f s.lastOut }

theorem init_label (hf : Renaming f) (cs : CommonSettings) : renP f (Post.postInit cs) = Post.postInit cs := by
  unfold renP Post.postInit
  simp only [ren_default hf]
  congr 1
  · unfold Smooth.timeInit
    simp only [ren_default hf]
  · split_ifs
    · unfold renS Smooth.abInit
      simp only [ren_default hf]
    · rfl

theorem fuse_label (cs : CommonSettings) (s : Post.PostState) (t : Int) (i o : Position) (st : NavigationStatus) :
    Post.fusePositions cs (renP f s) t (ren f i) (ren f o) st =
      (ren f (Post.fusePositions cs s t i o st).1, renP f (Post.fusePositions cs s t i o st).2) := by
  have h1 : ∀ s, Post.fillIndoor cs (renP f s) (ren f i) = renP f (Post.fillIndoor cs s i) := by
    intro s
    unfold Post.fillIndoor
    have e : (ren f i).isEmpty = i.isEmpty := rfl
    rw [e]
    split_ifs <;> rfl
  have h2 : ∀ s, Post.fillOutdoor cs (renP f s) (ren f o) = renP f (Post.fillOutdoor cs s o) := by
    intro s
    unfold Post.fillOutdoor
    have e : (ren f o).isEmpty = o.isEmpty := rfl
    rw [e]
    split_ifs <;> rfl
  have h3 : ∀ s, Post.chooseFused cs (renP f s) t (ren f i) (ren f o) st = ren f (Post.chooseFused cs s t i o st) := by
    intro s
    unfold Post.chooseFused
    simp only [apply_ite (ren f)]
    rfl
  unfold Post.fusePositions
  dsimp only
  rw [h1, h2, h3]

theorem ab_label (P : Smooth.AbParams) (allowed : ℝ → ℝ → Prop) (s : Smooth.AbState) (p : Position) :
    Smooth.abSmooth P allowed { s with position := ren f s.position } (ren f p) =
      (ren f (Smooth.abSmooth P allowed s p).1,
        { (Smooth.abSmooth P allowed s p).2 with position := ren f (Smooth.abSmooth P allowed s p).2.position }) := by
  have hg : Smooth.abGain P { s with position := ren f s.position } (ren f p) = Smooth.abGain P s p := rfl
  unfold Smooth.abSmooth
  dsimp only
  rw [hg]
  have e1 : (ren f p).ts = p.ts := rfl
  have e2 : (ren f s.position).ts = s.position.ts := rfl
  have e3 : (ren f s.position).x = s.position.x := rfl
  have e4 : (ren f s.position).y = s.position.y := rfl
  have e5 : (ren f p).x = p.x := rfl
  have e6 : (ren f p).y = p.y := rfl
  have e7 : (ren f p).deviationM = p.deviationM := rfl
  rw [e1, e2, e3, e4, e5, e6, e7]
  by_cases h1 : p.ts > s.position.ts
  · rw [if_pos h1, if_pos h1]
    split_ifs <;> rfl
  · rw [if_neg h1, if_neg h1]

theorem smooth_label (allowed : ℝ → ℝ → Prop) (s : Post.Smoother) (p : Position) :
    (renS f s).smooth allowed (ren f p) = (s.smooth allowed p).map (fun r => (ren f r.1, renS f r.2)) := by
  cases s with
  | ab P s =>
    unfold Post.Smoother.smooth renS
    dsimp only
    rw [ab_label]
    rfl
  | ls P ub s =>
    unfold Post.Smoother.smooth renS
    dsimp only
    have : Smooth.lsSmooth P ub allowed s (ren f p) = (Smooth.lsSmooth P ub allowed s p).map (fun r => (ren f r.1, r.2)) := by
      unfold Smooth.lsSmooth
      have e1 : (ren f p).ts = p.ts := rfl
      have e5 : (ren f p).x = p.x := rfl
      have e6 : (ren f p).y = p.y := rfl
      rw [e1, e5, e6]
      by_cases hc : s.wasCalled = false
      · rw [if_pos hc, if_pos hc]
        rfl
      rw [if_neg hc, if_neg hc]
      dsimp only
      cases Smooth.addSequencePoint P s.fitX (((p.ts - s.startTime : Int) : ℝ) / 1000) p.x with
      | none => rfl
      | some fx =>
        cases Smooth.addSequencePoint P s.fitY (((p.ts - s.startTime : Int) : ℝ) / 1000) p.y with
        | none => rfl
        | some fy =>
          dsimp only
          split_ifs
          · rfl
          · cases (Smooth.predict P fx (((p.ts - s.startTime : Int) : ℝ) / 1000)).1 with
            | none => rfl
            | some x =>
              cases (Smooth.predict P fy (((p.ts - s.startTime : Int) : ℝ) / 1000)).1 with
              | none => rfl
              | some y => rfl
    rw [this, Option.map_map, Option.map_map]
    rfl

theorem reset_label (s : Post.Smoother) (p : Position) : (renS f s).reset (ren f p) = renS f (s.reset p) := by
  cases s <;> rfl

theorem time_label (hf : Renaming f) (s : Smooth.TimeState) (p : Position) (t : Int) :
    Smooth.timeSmooth ⟨ren f s.prev, ren f s.next⟩ (ren f p) t =
      (ren f (Smooth.timeSmooth s p t).1, ⟨ren f (Smooth.timeSmooth s p t).2.prev, ren f (Smooth.timeSmooth s p t).2.next⟩) := by
  have hi : ∀ s : Smooth.TimeState, Smooth.timeInterpolate ⟨ren f s.prev, ren f s.next⟩ (ren f p) t = ren f (Smooth.timeInterpolate s p t) := by
    intro s
    unfold Smooth.timeInterpolate
    simp only [apply_ite (ren f)]
    rfl
  unfold Smooth.timeSmooth
  have e1 : (ren f p).ts = p.ts := rfl
  have e2 : (ren f s.prev).levelId ≠ (ren f p).levelId ↔ s.prev.levelId ≠ p.levelId := not_congr hf.injective.eq_iff
  have e3 : (ren f s.next).levelId ≠ (ren f p).levelId ↔ s.next.levelId ≠ p.levelId := not_congr hf.injective.eq_iff
  have e4 : (ren f s.prev).isEmpty = s.prev.isEmpty := rfl
  have e5 : (ren f s.next).isEmpty = s.next.isEmpty := rfl
  have e6 : (ren f p).isEmpty = p.isEmpty := rfl
  have e7 : (ren f s.next).ts = s.next.ts := rfl
  simp only [e1, e2, e3, e4, e5, e6, e7]
  by_cases h1 : t < p.ts
  · rw [if_pos h1, if_pos h1]
  rw [if_neg h1, if_neg h1]
  by_cases h2 : s.prev.levelId ≠ p.levelId ∨ s.next.levelId ≠ p.levelId
  · rw [if_pos h2, if_pos h2]
  rw [if_neg h2, if_neg h2]
  by_cases h3 : s.prev.isEmpty = true ∨ s.next.isEmpty = true ∨ p.isEmpty = true
  · rw [if_pos h3, if_pos h3]
  rw [if_neg h3, if_neg h3]
  by_cases h4 : p.ts > s.next.ts
  · rw [if_pos h4, if_pos h4]
    exact Prod.ext (hi ⟨s.next, p⟩) rfl
  · rw [if_neg h4, if_neg h4]
    exact Prod.ext (hi s) rfl

theorem smoothing_label (hf : Renaming f) (cs : CommonSettings) (allowed : ℝ → ℝ → Prop) (s : Post.PostState) (p : Position) (t : Int) :
    Post.smoothing cs allowed (renP f s) (ren f p) t = (Post.smoothing cs allowed s p t).map (fun r => (ren f r.1, renP f r.2)) := by
  have ht : ∀ r : Position × Post.PostState, (if cs.useTimeSmoothing then
        (let q := Smooth.timeSmooth (renP f r.2).time (ren f r.1) t; (q.1, { renP f r.2 with time := q.2 })) else (ren f r.1, renP f r.2)) =
      (fun r : Position × Post.PostState => (ren f r.1, renP f r.2)) (if cs.useTimeSmoothing then
        (let q := Smooth.timeSmooth r.2.time r.1 t; (q.1, { r.2 with time := q.2 })) else r) := by
    intro r
    cases cs.useTimeSmoothing with
    | false => rfl
    | true =>
      simp only [if_true]
      rw [show (renP f r.2).time = ⟨ren f r.2.time.prev, ren f r.2.time.next⟩ from rfl, time_label hf]
      rfl
  unfold Post.smoothing
  dsimp only
  rw [Option.map_map]
  have hs : (if cs.useSmoothing then (Post.Smoother.smooth allowed
        (if (renP f s).lastOut.levelId ≠ (ren f p).levelId then (renP f s).smoother.reset (ren f p) else (renP f s).smoother) (ren f p)).map
          (fun r => (r.1, { renP f s with smoother := r.2 })) else some (ren f p, renP f s)) =
      (if cs.useSmoothing then (Post.Smoother.smooth allowed
        (if s.lastOut.levelId ≠ p.levelId then s.smoother.reset p else s.smoother) p).map
          (fun r => (r.1, { s with smoother := r.2 })) else some (p, s)).map (fun r => (ren f r.1, renP f r.2)) := by
    cases cs.useSmoothing with
    | false => rfl
    | true =>
      simp only [if_true]
      have e2 : (renP f s).lastOut.levelId ≠ (ren f p).levelId ↔ s.lastOut.levelId ≠ p.levelId := not_congr hf.injective.eq_iff
      have e3 : (if (renP f s).lastOut.levelId ≠ (ren f p).levelId then (renP f s).smoother.reset (ren f p) else (renP f s).smoother) =
          renS f (if s.lastOut.levelId ≠ p.levelId then s.smoother.reset p else s.smoother) := by
        simp only [e2]
        split_ifs
        · exact reset_label _ _
        · rfl
      rw [e3, smooth_label, Option.map_map, Option.map_map]
      rfl
  rw [hs, Option.map_map]
  congr 1
  funext r
  exact ht r

theorem takeOver_label (cs : CommonSettings) (s : Post.PostState) (p : Position) (t : Int) :
    Post.takeOver cs (renP f s) (ren f p) t = renP f (Post.takeOver cs s p t) := by
  unfold Post.takeOver
  dsimp only
  simp only [apply_ite (renP f)]
  rfl

/-- A point with the new name of the floor. -/
def renL (f : String → String) (p : Geometry.LocationPoint) : Geometry.LocationPoint := { p with level := f p.level }

theorem projLoop_label (g : NavGraph.Graph XYPoint) (p : Geometry.LocationPoint) (es : List (Int ×ₗ Int))
    (acc : Geometry.LocationPoint × Option ℝ) : NavGraph.projLoop g (renL f p) es (renL f acc.1, acc.2) =
      (NavGraph.projLoop g p es acc).map (fun r => (renL f r.1, r.2)) := by
  induction es generalizing acc with
  | nil => rfl
  | cons e es ih =>
    obtain ⟨p0, d0⟩ := acc
    unfold NavGraph.projLoop
    dsimp only
    cases NavGraph.getVertex g (ofLex e).1 with
    | none => rfl
    | some u =>
      cases NavGraph.getVertex g (ofLex e).2 with
      | none => rfl
      | some v =>
        have hp : NavGraph.edgeProjection (renL f p) u.point v.point = renL f (NavGraph.edgeProjection p u.point v.point) := by
          unfold NavGraph.edgeProjection
          simp only [apply_ite (renL f)]
          rfl
        dsimp only
        rw [hp]
        cases d0 with
        | none => exact ih (_, _)
        | some d =>
          dsimp only
          change (if Geometry.getDist p.x p.y (NavGraph.edgeProjection p u.point v.point).x (NavGraph.edgeProjection p u.point v.point).y < d
            then _ else _) = _
          split_ifs
          · exact ih (_, _)
          · exact ih (_, _)

theorem snap_label (hf : Renaming f) (cs : CommonSettings) (l : Level) (p : Position) :
    Post.snapToGraph cs (relabel f l) (ren f p) = (Post.snapToGraph cs l p).map (ren f) := by
  unfold Post.snapToGraph
  cases cs.useGraphProjection with
  | false => rfl
  | true =>
    simp only [if_true]
    have hp : NavGraph.projectOnGraph (relabel f l).graph ⟨(ren f p).levelId, (ren f p).x, (ren f p).y⟩ =
        (NavGraph.projectOnGraph l.graph ⟨p.levelId, p.x, p.y⟩).map (renL f) := by
      unfold NavGraph.projectOnGraph
      have := projLoop_label (f := f) l.graph ⟨p.levelId, p.x, p.y⟩ l.graph.edges (⟨p.levelId, p.x, p.y⟩, none)
      change (NavGraph.projLoop l.graph (renL f ⟨p.levelId, p.x, p.y⟩) l.graph.edges (renL f ⟨p.levelId, p.x, p.y⟩, none)).map Prod.fst = _
      rw [this, Option.map_map, Option.map_map]
      rfl
    rw [hp]
    cases NavGraph.projectOnGraph l.graph ⟨p.levelId, p.x, p.y⟩ with
    | none => rfl
    | some q =>
      simp only [Option.map_some]
      have hd : Geometry.getDistLP ⟨(ren f p).levelId, (ren f p).x, (ren f p).y⟩ (renL f q) = Geometry.getDistLP ⟨p.levelId, p.x, p.y⟩ q := by
        unfold Geometry.getDistLP
        have e : (ren f p).levelId = (renL f q).level ↔ p.levelId = q.level := hf.injective.eq_iff
        simp only [e]
        rfl
      rw [hd]
      cases Geometry.getDistLP ⟨p.levelId, p.x, p.y⟩ q with
      | none => rfl
      | some d =>
        simp only [Option.map_some]
        split_ifs <;> rfl

open Classical in
theorem processed_label (hf : Renaming f) (cs : CommonSettings) (allowed : ℝ → ℝ → Prop) (s : Post.PostState) (p : Position) (t t' : Int)
    (l : Level) : Post.getProcessedPosition cs allowed (renP f s) (ren f p) t t' (relabel f l) =
      (Post.getProcessedPosition cs allowed s p t t' l).map (fun r => (ren f r.1, renP f r.2)) := by
  have key : ∀ s : Post.PostState, (if (ren f p).isEmpty = true then some (Position.default, renP f s)
      else if ¬ Post.isInsideMap cs (ren f p) (relabel f l) then some (Position.default, renP f s)
      else if t - (ren f p).ts ≥ Post.toLongLong (1000 * cs.deadReckoningTime) then some (Position.default, renP f s)
      else (Post.smoothing cs allowed (renP f s) (ren f p) t).bind (fun r =>
        (Post.snapToGraph cs (relabel f l) (Post.takeOver cs r.2 r.1 t).lastOut).map (fun q =>
          (Post.fitInBox (relabel f l).geometry.boundingBox q,
            { Post.takeOver cs r.2 r.1 t with lastOut := Post.fitInBox (relabel f l).geometry.boundingBox q })))) =
      (if p.isEmpty = true then some (Position.default, s)
      else if ¬ Post.isInsideMap cs p l then some (Position.default, s)
      else if t - p.ts ≥ Post.toLongLong (1000 * cs.deadReckoningTime) then some (Position.default, s)
      else (Post.smoothing cs allowed s p t).bind (fun r =>
        (Post.snapToGraph cs l (Post.takeOver cs r.2 r.1 t).lastOut).map (fun q =>
          (Post.fitInBox l.geometry.boundingBox q,
            { Post.takeOver cs r.2 r.1 t with lastOut := Post.fitInBox l.geometry.boundingBox q })))).map
        (fun r => (ren f r.1, renP f r.2)) := by
    intro s
    have e1 : (ren f p).isEmpty = p.isEmpty := rfl
    have e2 : Post.isInsideMap cs (ren f p) (relabel f l) ↔ Post.isInsideMap cs p l := Iff.rfl
    have e3 : (ren f p).ts = p.ts := rfl
    have e4 : (relabel f l).geometry = l.geometry := rfl
    simp only [e1, e2, e3, e4]
    by_cases h1 : p.isEmpty = true
    · rw [if_pos h1, if_pos h1, Option.map_some, ren_default hf]
    rw [if_neg h1, if_neg h1]
    by_cases h2 : ¬ Post.isInsideMap cs p l
    · rw [if_pos h2, if_pos h2, Option.map_some, ren_default hf]
    rw [if_neg h2, if_neg h2]
    by_cases h3 : t - p.ts ≥ Post.toLongLong (1000 * cs.deadReckoningTime)
    · rw [if_pos h3, if_pos h3, Option.map_some, ren_default hf]
    rw [if_neg h3, if_neg h3, smoothing_label hf]
    cases Post.smoothing cs allowed s p t with
    | none => rfl
    | some r =>
      simp only [Option.map_some, Option.bind_some]
      rw [takeOver_label]
      rw [show (renP f (Post.takeOver cs r.2 r.1 t)).lastOut = ren f (Post.takeOver cs r.2 r.1 t).lastOut from rfl, snap_label hf,
        Option.map_map, Option.map_map]
      rfl
  unfold Post.getProcessedPosition
  dsimp only
  by_cases h : t' > 0
  · rw [if_pos h, if_pos h]
    exact key { s with lastStepTs := t' }
  · rw [if_neg h, if_neg h]
    exact key s

end Verif.Label
