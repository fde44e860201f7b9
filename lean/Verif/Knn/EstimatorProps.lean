import Verif.Knn.Props
import Verif.Triang.Example

/-!
# C28, C32, C75: the KNN position estimator and the radiomap level estimator
-/

namespace Verif.Knn

open Verif.Levels
open Verif.Geo (XYPoint)

/-! ## The maps built by the constructors -/

theorem radiomaps_find (c : LevelCollector) (id : String) :
    StdMap.find? (getLevelsRadiomaps c) id = (c.levels.reverse.find? (fun l => l.id == id)).map levelRadiomap := by
  unfold getLevelsRadiomaps
  induction c.levels using List.reverseRecOn with
  | nil => rfl
  | append_singleton ls l ih =>
    rw [List.foldl_append]
    simp only [List.foldl_cons, List.foldl_nil]
    rw [StdMap.find?_set, ih, List.reverse_append, List.reverse_singleton, List.singleton_append, List.find?_cons]
    by_cases h : l.id = id
    · simp [h]
    · have h1 : (l.id == id) = false := by simpa using h
      simp [h1, h]

/-- Some level with this id has a reference point with a fingerprint of this transmitter. -/
def HasFingerprint (c : LevelCollector) (id tx : String) : Prop :=
  ∃ l ∈ c.levels, l.id = id ∧ ∃ rp ∈ l.radiomap.referencePoints, ∃ p ∈ rp.fingerprints, p.1 = tx

theorem mem_insert_fold {α : Type} (f : α → String) (l : List α) (s : List String) (x : String) :
    x ∈ l.foldl (fun s a => StdSet.insert (f a) s) s ↔ x ∈ s ∨ ∃ a ∈ l, f a = x := by
  induction l generalizing s with
  | nil => simp
  | cons a l ih =>
    rw [List.foldl_cons, ih, StdSet.mem_insert]
    simp only [List.mem_cons, exists_eq_or_imp]
    constructor
    · rintro ((h | h) | h)
      · exact .inr (.inl h.symm)
      · exact .inl h
      · exact .inr (.inr h)
    · rintro (h | h | h)
      · exact .inl (.inr h)
      · exact .inl (.inl h.symm)
      · exact .inr h

theorem refTx_step (k id : String) (m : List (String × List String)) (rp : ReferencePoint XYPoint)
    (T : String → Prop)
    (h : (∀ x, T x ↔ ∃ ids, StdMap.find? m id = some ids ∧ x ∈ ids) ∧ ∀ ids, StdMap.find? m id = some ids → ids ≠ []) :
    (∀ x, (T x ∨ (k = id ∧ ∃ p ∈ rp.fingerprints, p.1 = x)) ↔
      ∃ ids, StdMap.find? (addRpTransmitters k m rp) id = some ids ∧ x ∈ ids) ∧
    ∀ ids, StdMap.find? (addRpTransmitters k m rp) id = some ids → ids ≠ [] := by
  obtain ⟨h1, h2⟩ := h
  have hmem : ∀ x, x ∈ rp.fingerprints.foldl (fun s p => StdSet.insert p.1 s) [] ↔ ∃ p ∈ rp.fingerprints, p.1 = x := by
    intro x; rw [mem_insert_fold Prod.fst]; simp
  unfold addRpTransmitters
  simp only
  set ids := rp.fingerprints.foldl (fun s p => StdSet.insert p.1 s) [] with hids
  by_cases he : ids.isEmpty = true
  · rw [if_pos he]
    refine ⟨?_, h2⟩
    intro x
    rw [← h1]
    constructor
    · rintro (h | ⟨-, h⟩)
      · exact h
      · rw [← hmem] at h
        rw [List.isEmpty_iff.mp he] at h
        simp at h
    · exact .inl
  · rw [if_neg he]
    have hne : ids ≠ [] := fun h => he (by rw [h]; rfl)
    cases hf : StdMap.find? m k with
    | none =>
      simp only
      rw [StdMap.find?_insert]
      by_cases hk : k = id
      · subst hk
        simp only [hf]
        have hT : ∀ x, ¬ T x := by
          intro x hx
          obtain ⟨ids', h', -⟩ := (h1 x).mp hx
          rw [hf] at h'; simp at h'
        constructor
        · intro x
          constructor
          · rintro (h | ⟨-, h⟩)
            · exact absurd h (hT x)
            · exact ⟨ids, by simp, (hmem x).mpr h⟩
          · rintro ⟨ids', h', hx⟩
            simp at h'
            subst h'
            exact .inr (by simpa using (hmem x).mp hx)
        · intro ids' h'
          simp at h'; subst h'; exact hne
      · have hk' : ¬ id = k := fun h => hk h.symm
        constructor
        · intro x
          simp only [hk, false_and, or_false]
          rw [h1]
          cases StdMap.find? m id <;> simp
        · intro ids' h'
          apply h2
          cases hfi : StdMap.find? m id <;> simp [hfi, hk] at h' ⊢
          assumption
    | some old =>
      simp only
      rw [StdMap.find?_set]
      by_cases hk : k = id
      · subst hk
        have hTo : ∀ x, T x ↔ x ∈ old := by
          intro x; rw [h1, hf]; simp
        have hm2 : ∀ x, x ∈ ids.foldl (fun s x => StdSet.insert x s) old ↔ x ∈ old ∨ x ∈ ids := by
          intro x
          rw [mem_insert_fold (fun x : String => x)]
          simp
        constructor
        · intro x
          simp only [if_true, Option.some.injEq, true_and, exists_eq_left']
          rw [hm2, hTo, hmem]
        · intro ids' h'
          simp only [if_true, Option.some.injEq] at h'
          rw [← h']
          intro h0
          obtain ⟨y, hy⟩ := List.exists_mem_of_ne_nil _ hne
          have := (hm2 y).mpr (.inr hy)
          rw [h0] at this; simp at this
      · constructor
        · intro x
          simp only [hk, false_and, or_false, if_false]
          exact h1 x
        · intro ids' h'
          simp only [hk, if_false] at h'
          exact h2 ids' h'

theorem refTx_find (c : LevelCollector) (id : String) :
    (∀ x, HasFingerprint c id x ↔ ∃ ids, StdMap.find? (getLevelReferenceTransmittersMap c) id = some ids ∧ x ∈ ids) ∧
    ∀ ids, StdMap.find? (getLevelReferenceTransmittersMap c) id = some ids → ids ≠ [] := by
  have hflat : getLevelReferenceTransmittersMap c =
      (c.levels.flatMap (fun l => l.radiomap.referencePoints.map (fun rp => (l.id, rp)))).foldl
        (fun m p => addRpTransmitters p.1 m p.2) [] := by
    unfold getLevelReferenceTransmittersMap
    rw [List.foldl_flatMap]
    congr 1
    funext m l
    rw [List.foldl_map]
  have hT : ∀ x, HasFingerprint c id x ↔ ∃ q ∈ c.levels.flatMap (fun l => l.radiomap.referencePoints.map (fun rp => (l.id, rp))),
      q.1 = id ∧ ∃ p ∈ q.2.fingerprints, p.1 = x := by
    intro x
    unfold HasFingerprint
    constructor
    · rintro ⟨l, hl, h1, rp, hrp, h2⟩
      exact ⟨(l.id, rp), List.mem_flatMap.mpr ⟨l, hl, List.mem_map.mpr ⟨rp, hrp, rfl⟩⟩, h1, h2⟩
    · rintro ⟨q, hq, h1, h2⟩
      obtain ⟨l, hl, hq⟩ := List.mem_flatMap.mp hq
      obtain ⟨rp, hrp, rfl⟩ := List.mem_map.mp hq
      exact ⟨l, hl, h1, rp, hrp, h2⟩
  rw [hflat]
  simp only [hT]
  induction c.levels.flatMap (fun l => l.radiomap.referencePoints.map (fun rp => (l.id, rp))) using List.reverseRecOn with
  | nil => simp
  | append_singleton L q ih =>
    rw [List.foldl_append]
    simp only [List.foldl_cons, List.foldl_nil]
    obtain ⟨h1, h2⟩ := refTx_step q.1 id _ q.2 _ ih
    refine ⟨?_, h2⟩
    intro x
    rw [← h1]
    simp only [List.mem_append, List.mem_singleton]
    constructor
    · rintro ⟨q', hq | rfl, h⟩
      · exact .inl ⟨q', hq, h⟩
      · exact .inr h
    · rintro (⟨q', hq, h⟩ | h)
      · exact ⟨q', .inl hq, h⟩
      · exact ⟨q, .inr rfl, h⟩

theorem triangulateFrom_ne (s : Triang.Sorts) (ls : List Level) (m : List (String × List RpTriangle)) (id : String)
    (hm : ∀ ts, StdMap.find? m id = some ts → ts ≠ []) :
    ∀ ts, StdMap.find? (triangulateFrom s ls m) id = some ts → ts ≠ [] := by
  induction ls generalizing m with
  | nil => exact hm
  | cons l ls ih =>
    unfold triangulateFrom
    simp only
    split_ifs with h1 h2
    · exact hm
    · apply ih
      intro ts h
      rw [StdMap.find?_insert] at h
      cases hf : StdMap.find? m id with
      | some v =>
        have : v = ts := by
          by_cases hk : l.id = id <;> simp [hf, hk] at h <;> exact h
        exact this ▸ hm v hf
      | none =>
        by_cases hk : l.id = id
        · simp only [hf, hk, if_true, Option.some.injEq, Option.getD_none] at h
          rw [← h]
          intro h0
          rw [List.map_eq_nil_iff] at h0
          rw [h0] at h2; simp at h2
        · simp [hf, hk] at h
    · exact ih m hm

/-! ## C32 -/

/-- The radiomap index of the level was built by the radiomap constructor (true of every level a
collector holds). -/
def WellFormed (l : Level) : Prop := l.radiomap = mkRadiomap l.radiomap.referencePoints

/-- The measurements of transmitters with a fingerprint on the level. -/
noncomputable def usable (c : LevelCollector) (id : String) (msr : List RadioData) : List RadioData :=
  open Classical in msr.filter (fun m => HasFingerprint c id m.id)

/-- **C32.** For a level of the collector: without measurements the status is NO_SOLUTION; with
measurements the call throws iff no level of that id has any fingerprint; with fewer usable
measurements than required the status is NO_SOLUTION; in triangle mode without triangulation it is
NAVIGATION_ERROR; in all these cases the previous position is returned. Otherwise the status is OK and
a new non empty indoor position for this level and time stamp is returned. Nothing else happens, in
particular no undefined behaviour and never NO_RPS. -/
theorem C32_status (s : Triang.Sorts) (sort : List (String × ℝ) → List (String × ℝ)) (c : LevelCollector)
    (p : CommonSettings) (old : Position) (level : Level) (hl : level ∈ c.levels) (hwf : WellFormed level)
    (ts : Int) (msr : List RadioData) :
    let r := calculatePosition (mkCfg s sort c p) old level ts msr
    let enough := p.minNumOfMeasurementsForPositionCalculation ≤ (usable c level.id msr).length
    let solvable := p.useTriangles = true → (StdMap.find? (triangulate s c) level.id).isSome
    (msr = [] → r = .ok (.NO_SOLUTION, old)) ∧
    (msr ≠ [] → (¬ ∃ tx, HasFingerprint c level.id tx) → r = .throws) ∧
    (msr ≠ [] → (∃ tx, HasFingerprint c level.id tx) →
      (¬ enough → r = .ok (.NO_SOLUTION, old)) ∧
      (enough → ¬ solvable → r = .ok (.NAVIGATION_ERROR, old)) ∧
      (enough → solvable → ∃ x y, r = .ok (.OK, ⟨x, y, level.id, 1, ts, false, .INDOOR, 0⟩))) := by
  classical
  intro r enough solvable
  obtain ⟨h1, h2⟩ := refTx_find c level.id
  refine ⟨?_, ?_, ?_⟩
  · rintro rfl; rfl
  · intro hne hno
    have hf : StdMap.find? (getLevelReferenceTransmittersMap c) level.id = none := by
      cases hf : StdMap.find? (getLevelReferenceTransmittersMap c) level.id with
      | none => rfl
      | some ids =>
        exfalso
        obtain ⟨x, hx⟩ := List.exists_mem_of_ne_nil _ (h2 ids hf)
        exact hno ⟨x, (h1 x).mpr ⟨ids, hf, hx⟩⟩
    show calculatePosition (mkCfg s sort c p) old level ts msr = _
    unfold calculatePosition
    rw [if_neg (by simpa using hne)]
    simp only [mkCfg, hf]
  · intro hne ⟨tx, htx⟩
    obtain ⟨ids, hf, -⟩ := (h1 tx).mp htx
    have hvalid : getWhitelistedMeasurements ids msr = usable c level.id msr := by
      unfold getWhitelistedMeasurements usable
      apply List.filter_congr
      intro m _
      have : HasFingerprint c level.id m.id ↔ m.id ∈ ids := by
        rw [h1]; rw [hf]; simp
      simp [this]
    obtain ⟨rm, hrm⟩ : ∃ rm, StdMap.find? (getLevelsRadiomaps c) level.id = some rm := by
      rw [radiomaps_find]
      cases hfi : c.levels.reverse.find? (fun l => l.id == level.id) with
      | none =>
        rw [List.find?_eq_none] at hfi
        exact absurd (by simp) (hfi level (by simpa using hl))
      | some l => exact ⟨_, rfl⟩
    have hr : r = if (usable c level.id msr).length < p.minNumOfMeasurementsForPositionCalculation then .ok (.NO_SOLUTION, old)
        else
          let w := calcRpWeightsKnn rm (usable c level.id msr) p.useDiffMode
          let done := fun (p : XYPoint) =>
            Result.ok (NavigationStatus.OK, (⟨p.x, p.y, level.id, 1, ts, false, .INDOOR, 0⟩ : Position))
          if p.useTriangles then
            match StdMap.find? (triangulate s c) level.id with
            | none => .ok (.NAVIGATION_ERROR, old)
            | some triangles =>
              if triangles.isEmpty then .ok (.NO_RPS, old)
              else match calcPositionInTriangle triangles level.radiomap w with
                | .undefined => .undefined
                | .throws => .throws
                | .ok p => done p
          else done ⟨0, 0⟩ := by
      show calculatePosition (mkCfg s sort c p) old level ts msr = _
      unfold calculatePosition
      rw [if_neg (by simpa using hne)]
      simp only [mkCfg, hf, hrm, hvalid, C31_always_origin]
      rfl
    refine ⟨?_, ?_, ?_⟩
    · intro hen
      rw [hr, if_pos (not_le.mp hen)]
    · intro hen hsol
      rw [hr, if_neg (not_lt.mpr hen)]
      have hsol' : p.useTriangles = true ∧ (StdMap.find? (triangulate s c) level.id).isSome = false := by
        by_cases hu : p.useTriangles = true
        · refine ⟨hu, ?_⟩
          by_contra hcon
          exact hsol (fun _ => by rw [Bool.not_eq_false] at hcon; exact hcon)
        · exact absurd (fun h => absurd h hu) hsol
      have hnone : StdMap.find? (triangulate s c) level.id = none := by
        cases hh : StdMap.find? (triangulate s c) level.id with
        | none => rfl
        | some v => rw [hh] at hsol'; simp at hsol'
      simp only [hsol'.1, if_true, hnone]
    · intro hen hsol
      rw [hr, if_neg (not_lt.mpr hen)]
      simp only
      by_cases hu : p.useTriangles = true
      · obtain ⟨tri, htri⟩ := Option.isSome_iff_exists.mp (hsol hu)
        have hne' : tri ≠ [] := triangulateFrom_ne s c.levels [] level.id (by simp) tri htri
        have hw : ∀ q ∈ calcRpWeightsKnn rm (usable c level.id msr) p.useDiffMode, 0 ≤ q.2 := by
          intro q hq
          have hq' := StdMap.find?_of_mem (calcRpWeightsKnn_sorted rm (usable c level.id msr) p.useDiffMode) (k := q.1) (v := q.2) hq
          exact ((C29_weights _ _ _ _).2 _ hq').1.le
        obtain ⟨t, bef, aft, pt, -, -, -, hpt, -⟩ := C30_in_triangle tri hne' level.radiomap.referencePoints _ hw
        rw [← hwf] at hpt
        refine ⟨pt.x, pt.y, ?_⟩
        simp only [hu, if_true, htri]
        rw [if_neg (by simpa using hne'), hpt]
      · refine ⟨0, 0, ?_⟩
        simp only [hu, Bool.false_eq_true, if_false]

/-- A sequence of calls of the estimator; a call that throws leaves the stored position alone. -/
noncomputable def run (cfg : Cfg) (pos : Position) : List (Level × Int × List RadioData) → Position
  | [] => pos
  | q :: qs => match calculatePosition cfg pos q.1 q.2.1 q.2.2 with
    | .ok r => run cfg r.2 qs
    | _ => run cfg pos qs

/-- **C32.** Over every history: the stored position (the one returned with every status) is the
initial one or carries the level and time stamp of an earlier call, marked indoor and non empty. -/
theorem C32_history (s : Triang.Sorts) (sort : List (String × ℝ) → List (String × ℝ)) (c : LevelCollector)
    (p : CommonSettings) (init : Position) (qs : List (Level × Int × List RadioData))
    (hq : ∀ q ∈ qs, q.1 ∈ c.levels ∧ WellFormed q.1) :
    run (mkCfg s sort c p) init qs = init ∨
    ∃ q ∈ qs, ∃ x y, run (mkCfg s sort c p) init qs = ⟨x, y, q.1.id, 1, q.2.1, false, .INDOOR, 0⟩ := by
  classical
  induction qs generalizing init with
  | nil => exact .inl rfl
  | cons q qs ih =>
    have ih' := fun i => ih i (fun q hq' => hq q (List.mem_cons_of_mem _ hq'))
    obtain ⟨h1, h2, h3⟩ := C32_status s sort c p init q.1 (hq q (by simp)).1 (hq q (by simp)).2 q.2.1 q.2.2
    have step : calculatePosition (mkCfg s sort c p) init q.1 q.2.1 q.2.2 = .throws ∨
        (∃ st, calculatePosition (mkCfg s sort c p) init q.1 q.2.1 q.2.2 = .ok (st, init)) ∨
        ∃ x y, calculatePosition (mkCfg s sort c p) init q.1 q.2.1 q.2.2 = .ok (.OK, ⟨x, y, q.1.id, 1, q.2.1, false, .INDOOR, 0⟩) := by
      by_cases he : q.2.2 = []
      · exact .inr (.inl ⟨_, h1 he⟩)
      · by_cases hf : ∃ tx, HasFingerprint c q.1.id tx
        · obtain ⟨h4, h5, h6⟩ := h3 he hf
          by_cases hen : p.minNumOfMeasurementsForPositionCalculation ≤ (usable c q.1.id q.2.2).length
          · by_cases hs : p.useTriangles = true → (StdMap.find? (triangulate s c) q.1.id).isSome
            · exact .inr (.inr (h6 hen hs))
            · exact .inr (.inl ⟨_, h5 hen hs⟩)
          · exact .inr (.inl ⟨_, h4 hen⟩)
        · exact .inl (h2 he hf)
    have lift : ∀ i, (run (mkCfg s sort c p) i qs = i ∨
        ∃ q' ∈ qs, ∃ x y, run (mkCfg s sort c p) i qs = ⟨x, y, q'.1.id, 1, q'.2.1, false, .INDOOR, 0⟩) := ih'
    unfold run
    rcases step with h | ⟨st, h⟩ | ⟨x, y, h⟩
    · rw [h]
      rcases lift init with h | ⟨q', hq', h⟩
      · exact .inl h
      · exact .inr ⟨q', List.mem_cons_of_mem _ hq', h⟩
    · rw [h]
      rcases lift init with h | ⟨q', hq', h⟩
      · exact .inl h
      · exact .inr ⟨q', List.mem_cons_of_mem _ hq', h⟩
    · rw [h]
      right
      rcases lift ⟨x, y, q.1.id, 1, q.2.1, false, .INDOOR, 0⟩ with h | ⟨q', hq', h⟩
      · exact ⟨q, by simp, x, y, h⟩
      · exact ⟨q', List.mem_cons_of_mem _ hq', h⟩

/-! ## C28 -/

/-- The fingerprints used for a level id: those of the last level with this id. -/
def fingerprintsOf (c : LevelCollector) (id : String) : List Fingerprint :=
  match c.levels.reverse.find? (fun l => l.id == id) with
  | some l => levelRadiomap l
  | none => []

/-- The mean closeness of a measurement to the fingerprints of its transmitter. -/
noncomputable def closeness (fps : List Fingerprint) (m : RadioData) : ℝ :=
  let fs := fps.filter (fun f => f.tx == m.id)
  (fs.map (fun f => 1 / (|(|m.rssi| - |f.stat.mean|)| + 1 / 10))).sum / fs.length

/-- The measurements of transmitters that have a fingerprint. -/
def hits (fps : List Fingerprint) (msr : List RadioData) : List RadioData :=
  msr.filter (fun m => fps.any (fun f => f.tx == m.id))

/-- The score of a level: number of known measurements times the sum of their closeness. -/
noncomputable def levelScore (fps : List Fingerprint) (msr : List RadioData) : ℝ :=
  ((hits fps msr).map (closeness fps)).sum * (hits fps msr).length

theorem foldl_add_eq {α : Type} (g : α → ℝ) (l : List α) (a : ℝ) : l.foldl (fun a f => a + g f) a = a + (l.map g).sum := by
  induction l generalizing a with
  | nil => simp
  | cons x l ih => rw [List.foldl_cons, ih, List.map_cons, List.sum_cons]; ring

theorem calcWeight_eq (msr : List RadioData) (fps : List Fingerprint) : calcWeight msr fps = levelScore fps msr := by
  have key : ∀ (msr : List RadioData) (acc : ℝ × ℕ), msr.foldl (calcWeightStep fps) acc =
      (acc.1 + ((hits fps msr).map (closeness fps)).sum, acc.2 + (hits fps msr).length) := by
    intro msr
    induction msr with
    | nil => intro acc; simp [hits]
    | cons m msr ih =>
      intro acc
      rw [List.foldl_cons, ih]
      have hlen : (fps.filter (fun f => f.tx == m.id)).length > 0 ↔ fps.any (fun f => f.tx == m.id) = true := by
        rw [gt_iff_lt, List.length_pos_iff_exists_mem]
        simp
      have hd : ∀ f : Fingerprint, 1 ÷ (|(|m.rssi| - |f.stat.mean|)| + 1 / 10) = 1 / (|(|m.rssi| - |f.stat.mean|)| + 1 / 10) :=
        fun f => divide_pos (by positivity)
      unfold calcWeightStep
      simp only [hd]
      by_cases h : fps.any (fun f => f.tx == m.id) = true
      · have hh : hits fps (m :: msr) = m :: hits fps msr := by unfold hits; exact List.filter_cons_of_pos (p := fun m : RadioData => fps.any (fun f => f.tx == m.id)) h
        rw [if_pos (hlen.mpr h), if_pos (hlen.mpr h), divide_pos (by exact_mod_cast hlen.mpr h), hh, List.map_cons, List.sum_cons, List.length_cons, foldl_add_eq]
        ext
        · simp only [closeness, zero_add]; ring
        · simp only; omega
      · have hh : hits fps (m :: msr) = hits fps msr := by unfold hits; exact List.filter_cons_of_neg (p := fun m : RadioData => fps.any (fun f => f.tx == m.id)) h
        rw [if_neg (fun h' => h (hlen.mp h')), if_neg (fun h' => h (hlen.mp h')), hh]
  unfold calcWeight levelScore
  rw [key]
  simp

/-- **C28.** The score is never negative and positive iff some measured transmitter has a fingerprint. -/
theorem C28_score (msr : List RadioData) (fps : List Fingerprint) :
    0 ≤ levelScore fps msr ∧ (0 < levelScore fps msr ↔ ∃ m ∈ msr, ∃ f ∈ fps, f.tx = m.id) := by
  have hpos : ∀ m ∈ hits fps msr, 0 < closeness fps m := by
    intro m hm
    have hm2 : ∃ f ∈ fps, f.tx = m.id := by simpa [hits] using (List.mem_filter.mp hm).2
    unfold closeness
    obtain ⟨f, hf, hfm⟩ := hm2
    have hne : (fps.filter (fun f => f.tx == m.id)) ≠ [] := by
      intro h0
      have : f ∈ fps.filter (fun f => f.tx == m.id) := List.mem_filter.mpr ⟨hf, by simpa using hfm⟩
      rw [h0] at this; simp at this
    apply div_pos
    · apply List.sum_pos
      · intro x hx
        obtain ⟨g, -, rfl⟩ := List.mem_map.mp hx
        have := abs_nonneg (|m.rssi| - |g.stat.mean|)
        positivity
      · simpa using hne
    · exact_mod_cast List.length_pos_iff.mpr hne
  have hiff : (∃ m ∈ msr, ∃ f ∈ fps, f.tx = m.id) ↔ hits fps msr ≠ [] := by
    unfold hits
    rw [Ne, List.filter_eq_nil_iff]
    simp
  rw [hiff]
  by_cases h : hits fps msr = []
  · simp [levelScore, h]
  · have : 0 < levelScore fps msr := by
      unfold levelScore
      apply mul_pos
      · apply List.sum_pos
        · intro x hx
          obtain ⟨m, hm, rfl⟩ := List.mem_map.mp hx
          exact hpos m hm
        · simpa using h
      · exact_mod_cast List.length_pos_iff.mpr h
    exact ⟨this.le, by simp [this, h]⟩

/-- **C28.** The score in best reference point mode: the largest difference mode weight of a
reference point, 0 if none has three matches. -/
theorem C28_best_rp (msr : List RadioData) (fps : List Fingerprint) :
    ((∀ rp, (matched fps msr rp).length < 3) ∧ calcWeightBestRp msr fps = 0) ∨
    ((∃ rp, 3 ≤ (matched fps msr rp).length ∧ calcWeightBestRp msr fps = diffWeight msr (matched fps msr rp)) ∧
     (∀ rp, 3 ≤ (matched fps msr rp).length → diffWeight msr (matched fps msr rp) ≤ calcWeightBestRp msr fps) ∧
     0 < calcWeightBestRp msr fps) := by
  have hs := calcRpWeightsKnn_sorted fps msr true
  have hfold : ∃ r, FirstMax (fun _ : String × ℝ => True) Prod.snd 0 (calcRpWeightsKnn fps msr true) r ∧
      calcWeightBestRp msr fps = match r with | some x => x.2 | none => 0 := by
    obtain ⟨r, hr, hf⟩ := firstMax_fold (fun _ : String × ℝ => True) Prod.snd (fun _ => ()) 0 () (calcRpWeightsKnn fps msr true)
    refine ⟨r, hr, ?_⟩
    have hproj : ∀ (l : List (String × ℝ)) (b : ℝ), l.foldl (fun b p => if p.2 > b then p.2 else b) b =
        (l.foldl (fun (b : ℝ × Unit) x => if True then (if x.2 > b.1 then (x.2, ()) else b) else b) (b, ())).1 := by
      intro l
      induction l with
      | nil => intro b; rfl
      | cons x l ih =>
        intro b
        rw [List.foldl_cons, List.foldl_cons, ih]
        congr 2
        by_cases h : x.2 > b <;> simp [h]
    unfold calcWeightBestRp
    rw [hproj, hf]
    cases r <;> rfl
  obtain ⟨r, hr, he⟩ := hfold
  have hmem : ∀ rp, 3 ≤ (matched fps msr rp).length → (rp, diffWeight msr (matched fps msr rp)) ∈ calcRpWeightsKnn fps msr true := by
    intro rp h
    obtain ⟨h1, h2⟩ := C29_weights fps msr true rp
    obtain ⟨w, hw⟩ := Option.isSome_iff_exists.mp (h1.mpr h)
    have := (h2 w hw).2
    rw [if_pos rfl] at this
    rw [← this]
    exact StdMap.mem_of_find? hw
  have hback : ∀ q ∈ calcRpWeightsKnn fps msr true, 3 ≤ (matched fps msr q.1).length ∧ q.2 = diffWeight msr (matched fps msr q.1) ∧ 0 < q.2 := by
    intro q hq
    have hf := StdMap.find?_of_mem hs (k := q.1) (v := q.2) hq
    obtain ⟨h1, h2⟩ := C29_weights fps msr true q.1
    obtain ⟨h3, h4⟩ := h2 _ hf
    rw [if_pos rfl] at h4
    exact ⟨h1.mp (by rw [hf]; rfl), h4, h3⟩
  cases r with
  | none =>
    left
    refine ⟨?_, he⟩
    intro rp
    by_contra hc
    have hm := hmem rp (by omega)
    have h1 := hr _ hm trivial
    have h2 := (hback _ hm).2.2
    simp only at h1 h2
    linarith
  | some x =>
    right
    obtain ⟨before, after, hl, -, h0, hb, ha⟩ := hr
    have hx : x ∈ calcRpWeightsKnn fps msr true := by rw [hl]; simp
    obtain ⟨h1, h2, h3⟩ := hback x hx
    refine ⟨⟨x.1, h1, he.trans h2⟩, ?_, he ▸ h3⟩
    intro rp h
    have hm := hmem rp h
    rw [hl] at hm
    rw [he]
    show _ ≤ x.2
    rcases List.mem_append.mp hm with hm | hm
    · exact (hb _ hm trivial).le
    · rcases List.mem_cons.mp hm with hm | hm
      · exact (congrArg Prod.snd hm).le
      · exact ha _ hm trivial

/-- **C28.** For a collector's own levels the call never throws and returns the first level with
maximal positive score, or the empty id iff no level has a positive score. -/
theorem C28_level (useBestRp : Bool) (c : LevelCollector) (msr : List RadioData) :
    ∃ r : Option Level,
      detectByRadiomap useBestRp (getLevelsRadiomaps c) c msr = some (match r with | some l => l.id | none => "") ∧
      FirstMax (fun _ => True)
        (fun l => if useBestRp then calcWeightBestRp msr (fingerprintsOf c l.id) else levelScore (fingerprintsOf c l.id) msr)
        0 c.levels r := by
  set cost : Level → ℝ := fun l => if useBestRp then calcWeightBestRp msr (fingerprintsOf c l.id)
    else levelScore (fingerprintsOf c l.id) msr with hcost
  obtain ⟨r, hr, hf⟩ := firstMax_fold (fun _ : Level => True) cost (fun l => l.id) 0 "" c.levels
  refine ⟨r, ?_, hr⟩
  have hgen : ∀ (ls : List Level), (∀ l ∈ ls, l ∈ c.levels) → ∀ b : ℝ × String,
      ls.foldlM (detectStep useBestRp (getLevelsRadiomaps c) msr) b =
        some (ls.foldl (fun b x => if True then (if cost x > b.1 then (cost x, x.id) else b) else b) b) := by
    intro ls
    induction ls with
    | nil => intro _ b; rfl
    | cons l ls ih =>
      intro hsub b
      rw [List.foldlM_cons, List.foldl_cons]
      have hfind : StdMap.find? (getLevelsRadiomaps c) l.id = some (fingerprintsOf c l.id) := by
        rw [radiomaps_find]
        unfold fingerprintsOf
        cases hfi : c.levels.reverse.find? (fun l' => l'.id == l.id) with
        | none =>
          rw [List.find?_eq_none] at hfi
          exact absurd (by simp) (hfi l (by simpa using hsub l (by simp)))
        | some l' => rfl
      have hstep : detectStep useBestRp (getLevelsRadiomaps c) msr b l =
          some (if cost l > b.1 then (cost l, l.id) else b) := by
        unfold detectStep
        rw [hfind]
        simp only [hcost, calcWeight_eq]
      rw [hstep]
      simp only [Option.bind_eq_bind, Option.bind_some, if_true]
      exact ih (fun l hl => hsub l (List.mem_cons_of_mem _ hl)) _
  unfold detectByRadiomap
  rw [hgen c.levels (fun _ h => h), hf]
  cases r <;> rfl

/-- **C28.** In the default mode, when no level has the empty id: the empty id is returned iff no
measured transmitter has a fingerprint on a level. -/
theorem C28_empty_iff (c : LevelCollector) (msr : List RadioData) (hid : ∀ l ∈ c.levels, l.id ≠ "") :
    detectByRadiomap false (getLevelsRadiomaps c) c msr = some "" ↔
      ∀ l ∈ c.levels, ∀ m ∈ msr, ∀ f ∈ fingerprintsOf c l.id, f.tx ≠ m.id := by
  obtain ⟨r, h, hr⟩ := C28_level false c msr
  rw [h]
  cases r with
  | none =>
    simp only [true_iff]
    intro l hl m hm f hf hfm
    have h1 := hr l hl trivial
    simp only [Bool.false_eq_true, if_false] at h1
    have h2 := (C28_score msr (fingerprintsOf c l.id)).2.mpr ⟨m, hm, f, hf, hfm⟩
    linarith
  | some l =>
    obtain ⟨before, after, hl, -, h0, -, -⟩ := hr
    have hmem : l ∈ c.levels := by rw [hl]; simp
    simp only [Bool.false_eq_true, if_false] at h0
    constructor
    · intro he
      exact absurd (Option.some.inj he) (hid l hmem)
    · intro hno
      obtain ⟨m, hm, f, hf, hfm⟩ := (C28_score msr (fingerprintsOf c l.id)).2.mp h0
      exact absurd hfm (hno l hmem m hm f hf)

/-- **C28.** In best-reference-point mode, when no level has the empty id: the empty id is returned iff no reference point of a
level has three fingerprints among the measurements. -/
theorem C28_empty_best (c : LevelCollector) (msr : List RadioData) (hid : ∀ l ∈ c.levels, l.id ≠ "") :
    detectByRadiomap true (getLevelsRadiomaps c) c msr = some "" ↔
      ∀ l ∈ c.levels, ∀ rp, (matched (fingerprintsOf c l.id) msr rp).length < 3 := by
  obtain ⟨r, h, hr⟩ := C28_level true c msr
  rw [h]
  cases r with
  | none =>
    simp only [true_iff]
    intro l hl
    have h1 := hr l hl trivial
    simp only [if_true] at h1
    rcases C28_best_rp msr (fingerprintsOf c l.id) with h2 | h2
    · exact h2.1
    · linarith [h2.2.2]
  | some l =>
    obtain ⟨before, after, hl, -, h0, -, -⟩ := hr
    have hmem : l ∈ c.levels := by rw [hl]; simp
    simp only [if_true] at h0
    constructor
    · intro he
      exact absurd (Option.some.inj he) (hid l hmem)
    · intro hno
      rcases C28_best_rp msr (fingerprintsOf c l.id) with h2 | ⟨⟨rp, h3, -⟩, -⟩
      · linarith [h2.2]
      · exact absurd (hno l hmem rp) (by omega)

end Verif.Knn
