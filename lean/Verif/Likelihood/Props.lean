import Verif.Likelihood.Spec
import Verif.Knn.HullProps

/-!
# Property theorems for the particle likelihood: C60, C83, C84
-/

namespace Verif.Likelihood

open Verif.Levels
open Verif.Geo (XYPoint)
open Verif.Knn (Result)

variable {sorts : Triang.Sorts} {sort : List (String × ℝ) → List (String × ℝ)} {c : LevelCollector} {s : CommonSettings}

theorem particleWeight_eq (x y : ℝ) (p : XYPoint) : particleWeight x y p = rawWeight p ⟨x, y⟩ := by
  unfold particleWeight rawWeight Geometry.dist Geometry.sqDist
  dsimp only
  rw [divide_pos (by positivity)]
  rw [show (x - p.x) * (x - p.x) + (y - p.y) * (y - p.y) = (x - p.x) ^ 2 + (y - p.y) ^ 2 by ring]

theorem rawWeight_pos (p q : XYPoint) : 0 < rawWeight p q := by
  unfold rawWeight Geometry.dist
  have := Real.sqrt_nonneg (Geometry.sqDist q p)
  positivity

/-- The usable measurements of a level with a fingerprint. -/
theorem validMsr_eq (level : Level) (msr : List RadioData) :
    ((∃ tx, Knn.HasFingerprint c level.id tx) → validMsr (mkCfg sorts sort c s) level msr = some (Knn.usable c level.id msr)) ∧
    ((¬ ∃ tx, Knn.HasFingerprint c level.id tx) → validMsr (mkCfg sorts sort c s) level msr = none) := by
  classical
  obtain ⟨h1, h2⟩ := Knn.refTx_find c level.id
  constructor
  · rintro ⟨tx, htx⟩
    obtain ⟨ids, hf, -⟩ := (h1 tx).mp htx
    have hvalid : Knn.getWhitelistedMeasurements ids msr = Knn.usable c level.id msr := by
      unfold Knn.getWhitelistedMeasurements Knn.usable
      apply List.filter_congr
      intro m _
      have : Knn.HasFingerprint c level.id m.id ↔ m.id ∈ ids := by
        rw [h1]; rw [hf]; simp
      simp [this]
    simp only [validMsr, mkCfg, hf, Option.map_some, hvalid]
  · intro hno
    have hf : StdMap.find? (Knn.getLevelReferenceTransmittersMap c) level.id = none := by
      cases hf : StdMap.find? (Knn.getLevelReferenceTransmittersMap c) level.id with
      | none => rfl
      | some ids =>
        exfalso
        obtain ⟨x, hx⟩ := List.exists_mem_of_ne_nil _ (h2 ids hf)
        exact hno ⟨x, (h1 x).mpr ⟨ids, hf, hx⟩⟩
    simp only [validMsr, mkCfg, hf, Option.map_none]

/-- For enough measurements the point is the one the KNN estimator answers. -/
theorem pointFor_likely (level : Level) (hl : level ∈ c.levels) (hwf : Knn.WellFormed level) (msr : List RadioData)
    (hne : msr ≠ []) (hfp : ∃ tx, Knn.HasFingerprint c level.id tx) (he : Enough c s level msr) :
    ∃ p, pointFor (mkCfg sorts sort c s) level (Knn.usable c level.id msr) = .ok p ∧ Likely sorts sort c s level msr p := by
  classical
  obtain ⟨-, -, h3⟩ := Knn.C32_status sorts sort c s Position.default level hl hwf 0 msr
  obtain ⟨-, -, h6⟩ := h3 hne hfp
  obtain ⟨rm, hrm⟩ : ∃ rm, StdMap.find? (Knn.getLevelsRadiomaps c) level.id = some rm := by
    rw [Knn.radiomaps_find]
    cases hfi : c.levels.reverse.find? (fun l => l.id == level.id) with
    | none =>
      rw [List.find?_eq_none] at hfi
      exact absurd (by simp) (hfi level (by simpa using hl))
    | some l => exact ⟨_, rfl⟩
  have hv := (validMsr_eq (sorts := sorts) (sort := sort) (s := s) level msr).1 hfp
  obtain ⟨ids, hf, hvalid⟩ : ∃ ids, StdMap.find? (Knn.getLevelReferenceTransmittersMap c) level.id = some ids ∧
      Knn.getWhitelistedMeasurements ids msr = Knn.usable c level.id msr := by
    simp only [validMsr, mkCfg, Option.map_eq_some_iff] at hv
    exact hv
  have hlt : ¬ (Knn.usable c level.id msr).length < s.minNumOfMeasurementsForPositionCalculation := not_lt.mpr he
  have hne' : msr.isEmpty = false := by simpa using hne
  by_cases hu : s.useTriangles = true
  · cases hts : StdMap.find? (Knn.triangulate sorts c) level.id with
    | none =>
      refine ⟨none, ?_, ?_⟩
      · simp [pointFor, radiomapPoint, mkCfg, hrm, hu, hts]
      · intro old ts
        simp [Knn.calculatePosition, Knn.mkCfg, hne', hf, hvalid, hlt, hrm, hu, hts]
    | some tri =>
      have hnt : tri ≠ [] := Knn.triangulateFrom_ne sorts c.levels [] level.id (by simp) tri hts
      obtain ⟨x, y, h⟩ := h6 he (fun _ => by rw [hts]; rfl)
      have hpt : ∃ pt, Knn.calcPositionInTriangle tri level.radiomap (Knn.calcRpWeightsKnn rm (Knn.usable c level.id msr) s.useDiffMode) = .ok pt := by
        simp only [Knn.calculatePosition, Knn.mkCfg, hne', hf, hvalid, hlt, hrm, hu, hts, if_true, if_false,
          Bool.false_eq_true, List.isEmpty_iff, hnt] at h
        cases hc : Knn.calcPositionInTriangle tri level.radiomap (Knn.calcRpWeightsKnn rm (Knn.usable c level.id msr) s.useDiffMode) with
        | ok pt => exact ⟨pt, rfl⟩
        | throws => rw [hc] at h; cases h
        | undefined => rw [hc] at h; cases h
      obtain ⟨pt, hpt⟩ := hpt
      refine ⟨some pt, ?_, ?_⟩
      · simp [pointFor, radiomapPoint, mkCfg, hrm, hu, hts, hnt, hpt]
      · intro old ts
        simp [Knn.calculatePosition, Knn.mkCfg, hne', hf, hvalid, hlt, hrm, hu, hts, hnt, hpt]
  · refine ⟨some ⟨0, 0⟩, ?_, ?_⟩
    · simp [pointFor, radiomapPoint, mkCfg, hrm, hu, Knn.C31_always_origin]
    · intro old ts
      simp [Knn.calculatePosition, Knn.mkCfg, hne', hf, hvalid, hlt, hrm, hu, Knn.C31_always_origin]

theorem foldl_sum (l : List ℝ) : l.foldl (· + ·) 0 = l.sum := (List.sum_eq_foldl).symm

/-! ## C60 -/

/-- **C60.** The weights of the particles for a level of the collector with fingerprints and measurements:
* the call returns one weight for every particle, none negative;
* with too few usable measurements all weights are equal and sum to one;
* with enough of them, but without triangulation, all are zero;
* otherwise they are proportional to `1 / (0.1 + distance)`, the distance being that to the position the KNN
  estimator reports, and sum to one, provided the unnormalised ones sum to more than `10⁻⁸`. -/
theorem C60_weights (level : Level) (hl : level ∈ c.levels) (hwf : Knn.WellFormed level) (msr : List RadioData)
    (hne : msr ≠ []) (hfp : ∃ tx, Knn.HasFingerprint c level.id tx) (qs : List Particle) :
    ∃ ws, calculateWeights (mkCfg sorts sort c s) level msr qs = .ok ws ∧ ws.length = qs.length ∧ (∀ w ∈ ws, 0 ≤ w) ∧
      (¬ Enough c s level msr → ws = List.replicate qs.length (1 / (qs.length : ℝ)) ∧ (qs ≠ [] → ws.sum = 1)) ∧
      (Enough c s level msr → ∃ p, Likely sorts sort c s level msr p ∧ (match p with
        | none => ws = List.replicate qs.length 0
        | some p =>
          let raw := qs.map (fun q => rawWeight p q.place)
          (raw.sum > 1 / 100000000 → ws = raw.map (fun w => w / raw.sum) ∧ ws.sum = 1) ∧
          (raw.sum ≤ 1 / 100000000 → ws = raw))) := by
  have hv := (validMsr_eq (sorts := sorts) (sort := sort) (s := s) level msr).1 hfp
  by_cases he : Enough c s level msr
  · obtain ⟨p, hp, hlik⟩ := pointFor_likely (sorts := sorts) (sort := sort) level hl hwf msr hne hfp he
    have hcalc : calculateWeights (mkCfg sorts sort c s) level msr qs = .ok (weighAll p qs) := by
      unfold calculateWeights
      rw [hv]
      dsimp only
      rw [if_neg (show ¬ (Knn.usable c level.id msr).length < (mkCfg sorts sort c s).minPosition from not_lt.mpr he), hp]
    refine ⟨_, hcalc, ?_⟩
    cases p with
    | none =>
      have h0 : weighAll none qs = List.replicate qs.length 0 := by
        unfold weighAll
        dsimp only
        have hm : qs.map (fun _ => (0 : ℝ)) = List.replicate qs.length 0 := by
          rw [List.map_const']
        rw [hm, foldl_sum, List.sum_replicate]
        rw [if_neg (by simp [minWeightSum])]
      rw [h0]
      refine ⟨by simp, ?_, fun h => absurd he h, fun _ => ⟨none, hlik, rfl⟩⟩
      intro w hw
      rw [List.eq_of_mem_replicate hw]
    | some p =>
      set raw := qs.map (fun q => rawWeight p q.place) with hraw
      have hposm : ∀ w ∈ raw, 0 < w := by
        intro w hw
        obtain ⟨q, -, rfl⟩ := List.mem_map.mp hw
        exact rawWeight_pos _ _
      have hsum : 0 ≤ raw.sum := List.sum_nonneg (fun w hw => (hposm w hw).le)
      have h0 : weighAll (some p) qs = if raw.sum > 1 / 100000000 then raw.map (fun w => w / raw.sum) else raw := by
        unfold weighAll
        dsimp only
        have hm : qs.map (fun q => particleWeight q.x q.y p) = raw := by
          rw [hraw]
          apply List.map_congr_left
          intro q _
          exact particleWeight_eq _ _ _
        rw [hm, foldl_sum]
        unfold minWeightSum
        split_ifs with h
        · exact List.map_congr_left (fun w _ => divide_pos (lt_trans (by norm_num) h))
        · rfl
      rw [h0]
      refine ⟨?_, ?_, fun h => absurd he h, fun _ => ⟨some p, hlik, ?_, ?_⟩⟩
      · split_ifs <;> simp [hraw]
      · intro w hw
        split_ifs at hw
        · obtain ⟨v, hv, rfl⟩ := List.mem_map.mp hw
          exact div_nonneg (hposm v hv).le hsum
        · exact (hposm w hw).le
      · intro h
        rw [if_pos h]
        refine ⟨rfl, ?_⟩
        have hne0 : raw.sum ≠ 0 := by
          intro h0; rw [h0] at h; norm_num at h
        have : raw.map (fun w => w / raw.sum) = raw.map (fun w => w * (1 / raw.sum)) := by
          apply List.map_congr_left; intro w _; ring
        rw [this, List.sum_map_mul_right, List.map_id', mul_one_div_cancel hne0]
      · intro h
        rw [if_neg (not_lt.mpr h)]
  · refine ⟨qs.map (fun _ => 1 / (qs.length : ℝ)), ?_, by simp, ?_, ?_, fun h => absurd h he⟩
    · unfold calculateWeights
      rw [hv]
      dsimp only
      rw [if_pos (show (Knn.usable c level.id msr).length < (mkCfg sorts sort c s).minPosition from not_le.mp he)]
      congr 1
      apply List.map_congr_left
      intro q hq
      exact divide_pos (by exact_mod_cast List.length_pos_of_mem hq)
    · intro w hw
      obtain ⟨q, -, rfl⟩ := List.mem_map.mp hw
      positivity
    · intro _
      rw [List.map_const']
      refine ⟨rfl, fun hq => ?_⟩
      have : (qs.length : ℝ) ≠ 0 := by simpa using hq
      rw [List.sum_replicate, nsmul_eq_mul, mul_one_div_cancel this]

theorem weigh_nearer (p : XYPoint) (qs : List Particle) (i j : ℕ) (q r : Particle) (hq : qs[i]? = some q) (hr : qs[j]? = some r)
    (h : Geometry.dist q.place p ≤ Geometry.dist r.place p) :
    ∃ v w, (weighAll (some p) qs)[i]? = some v ∧ (weighAll (some p) qs)[j]? = some w ∧ w ≤ v := by
  have hle : particleWeight r.x r.y p ≤ particleWeight q.x q.y p := by
    rw [particleWeight_eq, particleWeight_eq]
    unfold rawWeight
    have h0 : 0 ≤ Geometry.dist q.place p := Real.sqrt_nonneg _
    exact one_div_le_one_div_of_le (by positivity) (by linarith [show Geometry.dist q.place p ≤ Geometry.dist r.place p from h, show Geometry.dist (⟨q.x, q.y⟩ : XYPoint) p = Geometry.dist q.place p from rfl, show Geometry.dist (⟨r.x, r.y⟩ : XYPoint) p = Geometry.dist r.place p from rfl])
  unfold weighAll
  dsimp only
  set S := (qs.map (fun q => particleWeight q.x q.y p)).foldl (· + ·) 0 with hS
  by_cases h1 : S > minWeightSum
  · rw [if_pos h1]
    have : 0 < S := lt_trans (by unfold minWeightSum; norm_num) h1
    refine ⟨particleWeight q.x q.y p / S, particleWeight r.x r.y p / S, by simp [hq, divide_pos this],
      by simp [hr, divide_pos this], ?_⟩
    gcongr
  · rw [if_neg h1]
    exact ⟨particleWeight q.x q.y p, particleWeight r.x r.y p, by simp [hq], by simp [hr], hle⟩

/-- **C60.** With enough usable measurements, a particle nearer to the position the KNN estimator reports never
weighs less. -/
theorem C60_nearer (level : Level) (hl : level ∈ c.levels) (hwf : Knn.WellFormed level) (msr : List RadioData)
    (hne : msr ≠ []) (hfp : ∃ tx, Knn.HasFingerprint c level.id tx) (he : Enough c s level msr) (qs : List Particle)
    (p : XYPoint) (hp : Likely sorts sort c s level msr (some p)) (ws : List ℝ)
    (hw : calculateWeights (mkCfg sorts sort c s) level msr qs = .ok ws) (i j : ℕ) (q r : Particle)
    (hq : qs[i]? = some q) (hr : qs[j]? = some r) (h : Geometry.dist q.place p ≤ Geometry.dist r.place p) :
    ∃ v w, ws[i]? = some v ∧ ws[j]? = some w ∧ w ≤ v := by
  obtain ⟨p', hp', hlik⟩ := pointFor_likely (sorts := sorts) (sort := sort) level hl hwf msr hne hfp he
  have hpp : p' = some p := by
    have h1 := hp Position.default 0
    cases p' with
    | none =>
      have h2 := hlik Position.default 0
      rw [h1] at h2; cases h2
    | some p' =>
      have h2 := hlik Position.default 0
      rw [h1] at h2
      simp only [Result.ok.injEq, Prod.mk.injEq, Position.mk.injEq, and_true, true_and] at h2
      rw [Option.some.injEq]
      ext
      · exact h2.1.symm
      · exact h2.2.symm
  have hcalc : calculateWeights (mkCfg sorts sort c s) level msr qs = .ok (weighAll p' qs) := by
    unfold calculateWeights
    rw [(validMsr_eq level msr).1 hfp]
    dsimp only
    rw [if_neg (show ¬ (Knn.usable c level.id msr).length < (mkCfg sorts sort c s).minPosition from not_lt.mpr he), hp']
  rw [hcalc] at hw
  cases hw
  rw [hpp]
  exact weigh_nearer p qs i j q r hq hr h

open Knn.Witness2 in
/-- The hypotheses of C60 and C83 are met by a level with four reference points and three measurements; the KNN
estimator answers a position for them. -/
theorem witness_hyps (sorts : Triang.Sorts) (hE : StdSort Triang.Edge.lt sorts.edges) (hT : ∀ l, (sorts.triangles l).Perm l)
    (sort : List (String × ℝ) → List (String × ℝ)) (s : CommonSettings) (hs : s.useTriangles = true)
    (hmin : s.minNumOfMeasurementsForPositionCalculation ≤ 3) :
    lvl ∈ col.levels ∧ Knn.WellFormed lvl ∧ msr ≠ [] ∧ (∃ tx, Knn.HasFingerprint col lvl.id tx) ∧ Enough col s lvl msr ∧
      ∃ p, Likely sorts sort col s lvl msr (some p) := by
  have hl : lvl ∈ col.levels := by rw [show col.levels = [lvl] from rfl]; simp
  have hfp : ∀ tx, tx = "t1" ∨ tx = "t2" ∨ tx = "t3" → Knn.HasFingerprint col "L" tx := by
    intro tx h
    refine ⟨lvl, hl, rfl, ⟨"a", ⟨100, 100⟩, fp⟩, by simp [lvl, mkRadiomap, rps], (tx, Knn.Witness.st), ?_, rfl⟩
    rcases h with rfl | rfl | rfl <;> simp [fp]
  have hus : Knn.usable col lvl.id msr = msr := by
    unfold Knn.usable
    rw [List.filter_eq_self]
    intro m hm
    simp only [msr, List.mem_cons, List.not_mem_nil, or_false] at hm
    have : Knn.HasFingerprint col lvl.id m.id := by
      apply hfp
      rcases hm with rfl | rfl | rfl <;> simp
    simp [this]
  have he : Enough col s lvl msr := by
    unfold Enough
    rw [hus]
    simpa [msr] using hmin
  refine ⟨hl, rfl, by simp [msr], ⟨"t1", hfp _ (.inl rfl)⟩, he, ?_⟩
  obtain ⟨p, -, hlik⟩ := pointFor_likely (sorts := sorts) (sort := sort) lvl hl rfl msr (by simp [msr]) ⟨"t1", hfp _ (.inl rfl)⟩ he
  cases p with
  | some p => exact ⟨p, hlik⟩
  | none =>
    obtain ⟨pos, h, -⟩ := Knn.C75_example sorts hE hT sort s hs hmin Position.default 0
    have h2 := hlik Position.default 0
    rw [h] at h2
    cases h2

/-- **C60 (finding).** Particles too far away are not normalised: here one particle, 10⁹ metres away. -/
theorem C60_far : ∃ q : Particle, ∀ w ∈ weighAll (some ⟨0, 0⟩) [q], w < 1 / 100000000 := by
  refine ⟨⟨1000000000, 0, 0⟩, ?_⟩
  have hd : particleWeight 1000000000 0 ⟨0, 0⟩ = 1 / (1 / 10 + 1000000000) := by
    unfold particleWeight
    dsimp only
    rw [show ((1000000000 : ℝ) - 0) * (1000000000 - 0) + (0 - 0) * (0 - 0) = 1000000000 ^ 2 by norm_num,
      Real.sqrt_sq (by norm_num), divide_pos (by norm_num)]
  unfold weighAll minWeightSum
  simp only [List.map_cons, List.map_nil, hd, List.foldl_cons, List.foldl_nil]
  rw [if_neg (by norm_num)]
  intro w hw
  rw [List.mem_singleton] at hw
  rw [hw]; norm_num

/-- **C60.** The call throws exactly when no level of that id has a fingerprint, whatever the particles. -/
theorem C60_throws (level : Level) (hl : level ∈ c.levels) (hwf : Knn.WellFormed level) (msr : List RadioData)
    (hne : msr ≠ []) (qs : List Particle) :
    calculateWeights (mkCfg sorts sort c s) level msr qs = .throws ↔ ¬ ∃ tx, Knn.HasFingerprint c level.id tx := by
  constructor
  · intro h hfp
    obtain ⟨ws, h', -⟩ := C60_weights (sorts := sorts) (sort := sort) (s := s) level hl hwf msr hne hfp qs
    rw [h'] at h
    cases h
  · intro hno
    unfold calculateWeights
    rw [(validMsr_eq level msr).2 hno]

/-! ## C83 -/

/-- A history of preliminary calculations; a call that throws changes nothing. -/
noncomputable def prepared (cfg : Cfg) (calls : List (Level × List RadioData)) : Option XYPoint :=
  calls.foldl (fun st q => match prepare cfg st q.1 q.2 with
    | .ok p => p
    | _ => st) none

/-- A call the likelihood can use. -/
def Usable (c : LevelCollector) (s : CommonSettings) (q : Level × List RadioData) : Prop :=
  (∃ tx, Knn.HasFingerprint c q.1.id tx) ∧ Enough c s q.1 q.2

/-- **C83.** The sampling centre is the KNN position of the last call with enough usable measurements, however long
ago and on whatever level; before the first one there is none and every place weighs nothing. -/
theorem C83_centre (calls : List (Level × List RadioData))
    (hq : ∀ q ∈ calls, q.1 ∈ c.levels ∧ Knn.WellFormed q.1 ∧ q.2 ≠ []) :
    ((∀ q ∈ calls, ¬ Usable c s q) → prepared (mkCfg sorts sort c s) calls = none) ∧
    ∀ before q after, calls = before ++ q :: after → Usable c s q → (∀ r ∈ after, ¬ Usable c s r) →
      Likely sorts sort c s q.1 q.2 (prepared (mkCfg sorts sort c s) calls) := by
  have hskip : ∀ (q : Level × List RadioData) (st : Option XYPoint), ¬ Usable c s q →
      (match prepare (mkCfg sorts sort c s) st q.1 q.2 with | .ok p => p | _ => st) = st := by
    intro q st hu
    by_cases hfp : ∃ tx, Knn.HasFingerprint c q.1.id tx
    · have he : ¬ Enough c s q.1 q.2 := fun h => hu ⟨hfp, h⟩
      unfold prepare
      rw [(validMsr_eq q.1 q.2).1 hfp]
      dsimp only
      rw [if_neg (show ¬ (Knn.usable c q.1.id q.2).length ≥ (mkCfg sorts sort c s).minPosition from fun h => he h)]
    · unfold prepare
      rw [(validMsr_eq q.1 q.2).2 hfp]
  have hskips : ∀ (l : List (Level × List RadioData)) (st : Option XYPoint), (∀ r ∈ l, ¬ Usable c s r) →
      l.foldl (fun st q => match prepare (mkCfg sorts sort c s) st q.1 q.2 with | .ok p => p | _ => st) st = st := by
    intro l
    induction l with
    | nil => intro st _; rfl
    | cons r l ih =>
      intro st hr
      rw [List.foldl_cons, hskip r st (hr r (by simp))]
      exact ih st (fun r' h' => hr r' (List.mem_cons_of_mem _ h'))
  constructor
  · intro h
    exact hskips calls none h
  · rintro before q after rfl hu hafter
    obtain ⟨hl, hwf, hne⟩ := hq q (by simp)
    obtain ⟨p, hp, hlik⟩ := pointFor_likely (sorts := sorts) (sort := sort) q.1 hl hwf q.2 hne hu.1 hu.2
    unfold prepared
    rw [List.foldl_append, List.foldl_cons, hskips after _ hafter]
    have : ∀ st, prepare (mkCfg sorts sort c s) st q.1 q.2 = .ok p := by
      intro st
      unfold prepare
      rw [(validMsr_eq q.1 q.2).1 hu.1]
      dsimp only
      rw [if_pos (show (Knn.usable c q.1.id q.2).length ≥ (mkCfg sorts sort c s).minPosition from hu.2), hp]
    rw [this]
    exact hlik

/-- **C83.** The centres are the point, and a place weighs `1 / (0.1 + distance)` from it, or nothing. -/
theorem C83_weight (cfg : Cfg) (point : Option XYPoint) (level : Level) (msr : List RadioData) (cs : List XYPoint)
    (p : Option XYPoint) (h : samplingCenters cfg point level msr = .ok (cs, p)) (x y : ℝ) :
    prepare cfg point level msr = .ok p ∧ cs = p.toList ∧ cs.length ≤ 1 ∧
    getWeight p x y = match p with | some p => rawWeight p ⟨x, y⟩ | none => 0 := by
  unfold samplingCenters at h
  cases hp : prepare cfg point level msr with
  | throws => rw [hp] at h; cases h
  | undefined => rw [hp] at h; cases h
  | ok q =>
    rw [hp] at h
    cases h
    refine ⟨rfl, rfl, ?_, ?_⟩
    · cases p <;> simp
    · cases p with
      | none => rfl
      | some p => exact particleWeight_eq x y p

/-- **C83.** Whether there are enough measurements for an update or a mutation. -/
theorem C83_sufficient (level : Level) (msr : List RadioData) (hfp : ∃ tx, Knn.HasFingerprint c level.id tx) :
    (sufficientForUpdate (mkCfg sorts sort c s) level msr = some true ↔ Enough c s level msr) ∧
    (sufficientForMutation (mkCfg sorts sort c s) level msr = some true ↔
      s.minMsrNumForMutation ≤ (Knn.usable c level.id msr).length) := by
  have hv := (validMsr_eq (sorts := sorts) (sort := sort) (s := s) level msr).1 hfp
  unfold sufficientForUpdate sufficientForMutation
  rw [hv]
  simp [mkCfg, Enough]

/-! ## C84 -/

/-- **C84.** When every measured transmitter is on the level: a place is in the intersection area iff for every
measurement it is at most 10⁻⁷ metres outside the circle around the transmitter with the measured distance. -/
theorem C84_area (level : Level) (x y : ℝ) (msr : List RadioData) (tx : String → Transmitter XYZPoint)
    (h : ∀ m ∈ msr, level.transmitter m.id = some (tx m.id)) :
    ∃ b, inIntersectionArea level x y msr = some b ∧
      (b = true ↔ ∀ m ∈ msr, Geometry.dist ⟨(tx m.id).point.x, (tx m.id).point.y⟩ ⟨x, y⟩ ≤ m.distance + 1 / 10000000) := by
  induction msr with
  | nil => exact ⟨true, rfl, by simp⟩
  | cons m ms ih =>
    obtain ⟨b, hb, hiff⟩ := ih (fun m' hm' => h m' (List.mem_cons_of_mem _ hm'))
    have hm := h m (by simp)
    have hd : Real.sqrt (((tx m.id).point.x - x) * ((tx m.id).point.x - x) + ((tx m.id).point.y - y) * ((tx m.id).point.y - y)) =
        Geometry.dist ⟨(tx m.id).point.x, (tx m.id).point.y⟩ ⟨x, y⟩ := by
      unfold Geometry.dist Geometry.sqDist
      congr 1
      ring
    unfold inIntersectionArea
    rw [hm]
    dsimp only
    rw [hd]
    by_cases hlt : m.distance - Geometry.dist ⟨(tx m.id).point.x, (tx m.id).point.y⟩ ⟨x, y⟩ < -(1 / 10000000)
    · rw [if_pos hlt]
      refine ⟨false, rfl, ?_⟩
      simp only [Bool.false_eq_true, false_iff]
      intro hall
      have := hall m (by simp)
      linarith
    · rw [if_neg hlt]
      refine ⟨b, hb, ?_⟩
      rw [hiff]
      simp only [List.mem_cons, forall_eq_or_imp]
      constructor
      · intro h'; exact ⟨by push Not at hlt; linarith, h'⟩
      · intro h'; exact h'.2

/-- **C84.** It throws iff the first measurement that is unknown on the level is met before one whose circle
excludes the place. -/
theorem C84_throws (level : Level) (x y : ℝ) (msr : List RadioData) :
    inIntersectionArea level x y msr = none ↔ ∃ before m after, msr = before ++ m :: after ∧
      level.transmitter m.id = none ∧ ∀ b ∈ before, ∃ t, level.transmitter b.id = some t ∧
        Geometry.dist ⟨t.point.x, t.point.y⟩ ⟨x, y⟩ ≤ b.distance + 1 / 10000000 := by
  induction msr with
  | nil => simp [inIntersectionArea]
  | cons m ms ih =>
    unfold inIntersectionArea
    cases hm : level.transmitter m.id with
    | none =>
      simp only [true_iff]
      exact ⟨[], m, ms, rfl, hm, by simp⟩
    | some t =>
      dsimp only
      have hd : Real.sqrt ((t.point.x - x) * (t.point.x - x) + (t.point.y - y) * (t.point.y - y)) =
          Geometry.dist ⟨t.point.x, t.point.y⟩ ⟨x, y⟩ := by
        unfold Geometry.dist Geometry.sqDist
        congr 1
        ring
      rw [hd]
      by_cases hlt : m.distance - Geometry.dist ⟨t.point.x, t.point.y⟩ ⟨x, y⟩ < -(1 / 10000000)
      · rw [if_pos hlt]
        simp only [reduceCtorEq, false_iff]
        rintro ⟨before, m', after, heq, hn, hb⟩
        cases before with
        | nil =>
          simp only [List.nil_append, List.cons.injEq] at heq
          rw [← heq.1, hm] at hn; cases hn
        | cons b before =>
          simp only [List.cons_append, List.cons.injEq] at heq
          obtain ⟨t', ht', hle⟩ := hb b (by simp)
          rw [← heq.1, hm] at ht'
          cases ht'
          rw [← heq.1] at hle
          linarith
      · rw [if_neg hlt, ih]
        constructor
        · rintro ⟨before, m', after, heq, hn, hb⟩
          refine ⟨m :: before, m', after, by rw [heq]; rfl, hn, ?_⟩
          intro b hb'
          rcases List.mem_cons.mp hb' with rfl | hb'
          · exact ⟨t, hm, by push Not at hlt; linarith⟩
          · exact hb b hb'
        · rintro ⟨before, m', after, heq, hn, hb⟩
          cases before with
          | nil =>
            simp only [List.nil_append, List.cons.injEq] at heq
            rw [← heq.1, hm] at hn; cases hn
          | cons b before =>
            simp only [List.cons_append, List.cons.injEq] at heq
            exact ⟨before, m', after, heq.2, hn, fun b' hb' => hb b' (List.mem_cons_of_mem _ hb')⟩

/-- C84 is not vacuous: a place three metres from a transmitter measured at four metres is in the area, at two
metres it is not. -/
example : let tx : Transmitter XYZPoint := ⟨"t", ⟨3, 0, 0⟩, ⟨0, 0, 0⟩, .BEACON⟩
    let l : Level := ⟨"L", ⟨0, 0⟩, [("t", tx)], mkRadiomap [], ⟨[], ⟨⟨0, 0⟩, ⟨0, 0⟩⟩, []⟩, ⟨[], []⟩⟩
    inIntersectionArea l 0 0 [⟨.BEACON, "t", -70, 0, 4, 0⟩] = some true ∧
    inIntersectionArea l 0 0 [⟨.BEACON, "t", -70, 0, 2, 0⟩] = some false ∧
    inIntersectionArea l 0 0 [⟨.BEACON, "u", -70, 2, 0, 0⟩] = none := by
  intro tx l
  have h3 : Geometry.dist ⟨3, 0⟩ ⟨0, 0⟩ = 3 := by
    unfold Geometry.dist Geometry.sqDist
    rw [show ((3 : ℝ) - 0) ^ 2 + (0 - 0) ^ 2 = 3 ^ 2 by norm_num, Real.sqrt_sq (by norm_num)]
  have ht : l.transmitter "t" = some tx := by simp [Level.transmitter, l, StdMap.find?]
  refine ⟨?_, ?_, ?_⟩
  · obtain ⟨b, hb, hi⟩ := C84_area l 0 0 [⟨.BEACON, "t", -70, 0, 4, 0⟩] (fun _ => tx) (by simp [ht])
    rw [hb]
    simp only [List.mem_singleton, forall_eq, tx, h3] at hi
    rw [hi.mpr (by norm_num)]
  · obtain ⟨b, hb, hi⟩ := C84_area l 0 0 [⟨.BEACON, "t", -70, 0, 2, 0⟩] (fun _ => tx) (by simp [ht])
    rw [hb]
    simp only [List.mem_singleton, forall_eq, tx, h3] at hi
    cases b
    · rfl
    · exact absurd (hi.mp rfl) (by norm_num)
  · rw [C84_throws]
    exact ⟨[], _, [], rfl, by simp [Level.transmitter, l, StdMap.find?], by simp⟩

end Verif.Likelihood
