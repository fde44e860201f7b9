import Verif.Checked.OpsLemmas
import Verif.Checked.Radio
import Verif.Knn.Lemmas

/-!
# The checked preprocessor, level detection and fingerprint location never fail
-/

namespace Verif.Checked

open Verif Verif.Levels
open Verif.Geo (XYPoint)
open Verif.Knn (Fingerprint SigStat RpTriangle Result)

/-! ## Preprocessor -/

theorem averageRange_eq (x : RadioMeasurement) (l : List RadioMeasurement) (h : l ≠ []) :
    averageRange x l = some (Radio.averageRange x l) := by
  have h0 : (l.length : ℝ) ≠ 0 := by
    have := List.length_pos_iff.mpr h
    positivity
  simp only [averageRange, Radio.averageRange, div_eq h0, Option.bind_eq_bind, Option.bind_some]

theorem averageLoop_eq (l : List RadioMeasurement) : averageLoop l = some (Radio.averageLoop l) := by
  fun_induction Radio.averageLoop l with
  | case1 => unfold averageLoop; rfl
  | case2 x xs ih =>
    unfold averageLoop
    rw [averageRange_eq x _ (by simp), ih]
    rfl

/-- The constants of the buffer fit into 64 bits. -/
def BufferCfgSafe (cfg : Radio.BufferCfg) : Prop := Safe cfg.keepMs

structure BufferSafe (b : Radio.BufferState) : Prop where
  extraction : Safe b.lastExtractionTs
  current : Safe b.currentTs
  step : Safe b.lastStepTs

theorem extract_eq (s : Radio.Sorts) (cfg : Radio.BufferCfg) (hc : BufferCfgSafe cfg) (b : Radio.BufferState)
    (h : BufferSafe b) (t : Int) (ht : Safe t) :
    extractMeasurements s cfg b t = some (Radio.extractMeasurements s cfg b t) ∧
      BufferSafe (Radio.extractMeasurements s cfg b t).2 := by
  have key : ∀ b1 : Radio.BufferState, BufferSafe b1 →
      b1 = (if t > 0 then { b with lastStepTs := t } else b) →
      extractMeasurements s cfg b t = some (Radio.extractMeasurements s cfg b t) ∧
      BufferSafe (Radio.extractMeasurements s cfg b t).2 := by
    intro b1 h1 e
    unfold extractMeasurements Radio.extractMeasurements
    dsimp only
    rw [← e]
    simp only [sub_eq h1.current h1.extraction, averageLoop_eq, sub_eq h1.current h1.step, sub_eq h1.current hc,
      Option.bind_eq_bind, Option.bind_some]
    split_ifs
    · exact ⟨rfl, h1⟩
    · exact ⟨rfl, h1.current, h1.current, h1.step⟩
    · exact ⟨rfl, h1.current, h1.current, h1.step⟩
    · exact ⟨rfl, h1.current, h1.current, h1.step⟩
  refine key _ ?_ rfl
  split_ifs
  · exact ⟨h.extraction, h.current, ht⟩
  · exact h

/-- No transmitter of the map has a path loss exponent of zero. -/
def PathlossOk (c : LevelCollector) : Prop :=
  ∀ l ∈ c.levels, ∀ id t, l.transmitter id = some t → t.pathloss.B ≠ 0

theorem level_mem {c : LevelCollector} {id : String} {l : Level} (h : level c id = some l) : l ∈ c.levels := by
  unfold level at h
  split at h
  · cases h
  · exact List.mem_of_getElem? h

theorem withDistance_eq (cfg : Radio.Cfg) (h : PathlossOk cfg.levelIndex) (m : RadioData) :
    withDistance cfg m = some (Radio.withDistance cfg m) := by
  unfold withDistance Radio.withDistance
  split_ifs
  · cases findLevelByTransmitterId cfg.levelIndex m.id with
    | none => rfl
    | some id =>
      dsimp only
      cases hl : level cfg.levelIndex id with
      | none => rfl
      | some l =>
        dsimp only
        cases ht : l.transmitter m.id with
        | none => rfl
        | some t =>
          simp only [div_eq (h l (level_mem hl) _ t ht), Option.bind_eq_bind, Option.bind_some]
  · rfl

theorem radio_eq (s : Radio.Sorts) (cfg : Radio.Cfg) (h : PathlossOk cfg.levelIndex) (hc : BufferCfgSafe cfg.buffer)
    (st : Radio.State) (hb : BufferSafe st.buffer) (t : Int) (ht : Safe t) :
    extractRadioMeasurements s cfg st t = some (Radio.extractRadioMeasurements s cfg st t) := by
  unfold extractRadioMeasurements Radio.extractRadioMeasurements
  rw [(extract_eq s cfg.buffer hc st.buffer hb t ht).1]
  simp only [Option.bind_eq_bind, Option.bind_some]
  rw [map2_eq (g := Radio.withDistance cfg) _ (fun a _ => withDistance_eq cfg h a)]
  rfl

/-! ## Barometer -/

theorem calcMean_eq (l : List ℝ) : calcMean l = some (LevelEst.calcMean l) := by
  unfold calcMean LevelEst.calcMean
  cases l with
  | nil => rfl
  | cons a l => exact div_eq (by simp; positivity)

theorem updateLevel_eq (b : LevelEst.Barometer) (id : String) : updateLevel b id = some (LevelEst.updateLevel b id) := by
  unfold updateLevel LevelEst.updateLevel
  simp only [calcMean_eq, Option.bind_eq_bind, Option.bind_some]
  by_cases h : LevelEst.calcMean b.newM ≤ LevelEst.doubleEpsilon ∨ LevelEst.calcMean b.stored ≤ LevelEst.doubleEpsilon
  · simp only [if_pos h]
    split_ifs <;> rfl
  · have h' := h
    push Not at h'
    have he : 0 < LevelEst.doubleEpsilon := by unfold LevelEst.doubleEpsilon; norm_num
    have h1 := he.trans h'.1
    have h2 := he.trans h'.2
    have h3 : (100 : ℝ) * LevelEst.calcMean b.stored ≠ 0 := by positivity
    have h4 : 0 < (100 * LevelEst.calcMean b.newM) ÷ (100 * LevelEst.calcMean b.stored) := by
      rw [divide_eq h3]; positivity
    simp only [if_neg h, div_eq h3, log_eq h4, Option.bind_some]
    split_ifs <;> rfl

theorem calculateLevel_eq (ub : Bool) (e : LevelEst.Estimator) (d : String) (m : SensorMeasurement) :
    calculateLevel ub e d m = some (LevelEst.calculateLevel ub e d m) := by
  unfold calculateLevel LevelEst.calculateLevel
  dsimp only
  cases ub with
  | false => rfl
  | true =>
    simp only [if_true]
    unfold checkLevelChange LevelEst.checkLevelChange
    cases e.barometer.isInitialized with
    | false => rfl
    | true =>
      simp only [updateLevel_eq, Option.bind_eq_bind, Option.bind_some, Bool.not_true, Bool.false_eq_true, if_false]

/-! ## Level by transmitters -/

theorem max_one_ne (n : ℕ) : ((max n 1 : ℕ) : ℝ) ≠ 0 := by
  have : 0 < max n 1 := by omega
  positivity

theorem averageRssi_eq (l : List RadioData) : getAverageRssi l = some (LevelEst.getAverageRssi l) := div_eq (max_one_ne _)

theorem averageA_eq (l : Level) (msr : List RadioData) : getAverageA l msr = some (LevelEst.getAverageA l msr) := by
  unfold getAverageA LevelEst.getAverageA
  cases List.foldlM (fun a m => (l.transmitter m.id).map (fun t => a + t.pathloss.A)) (0 : ℝ) msr with
  | none => rfl
  | some s => simp only [div_eq (max_one_ne _), Option.bind_eq_bind, Option.bind_some]

theorem levelCost_eq (tx : Bool) (radio levelMsr : List RadioData) (l : Level) (h : radio ≠ []) :
    levelCost tx radio levelMsr l = some (LevelEst.levelCost tx radio levelMsr l) := by
  have h0 : (radio.length : ℝ) ≠ 0 := by
    have := List.length_pos_iff.mpr h
    positivity
  have h1 : (1 + (1 / 10) * (levelMsr.length : ℝ) ÷ radio.length : ℝ) ≠ 0 := by
    rw [divide_eq h0]; positivity
  have e : (if tx = true then getAverageA l levelMsr else some (some 0)) =
      some (if tx = true then LevelEst.getAverageA l levelMsr else some 0) := by
    rw [averageA_eq]; split_ifs <;> rfl
  unfold levelCost LevelEst.levelCost
  rw [e]
  cases (if tx = true then LevelEst.getAverageA l levelMsr else some 0) with
  | none => rfl
  | some a => simp only [bind2_some, averageRssi_eq, div_eq h0, div_eq h1, Option.bind_eq_bind, Option.bind_some]

theorem detectStepTx_eq (tx : Bool) (radio : List RadioData) (best : ℝ × String) (l : Level) :
    detectStepTx tx radio best l = some (LevelEst.detectStep tx radio best l) := by
  unfold detectStepTx LevelEst.detectStep
  dsimp only
  split_ifs with h
  · rfl
  · have hr : radio ≠ [] := by
      rintro rfl
      exact h (by simp [getLevelRadioMeasurements])
    rw [levelCost_eq tx radio _ l hr]
    cases LevelEst.levelCost tx radio (getLevelRadioMeasurements RadioData.id l radio) l <;> rfl

theorem detectTx_eq (tx : Bool) (c : LevelCollector) (radio : List RadioData) :
    detectByTransmitters tx c radio = some (LevelEst.detectByTransmitters tx c radio) := by
  unfold detectByTransmitters LevelEst.detectByTransmitters
  rw [fold2_eq (g := LevelEst.detectStep tx radio) _ _ (fun a b _ => detectStepTx_eq tx radio a b)]
  cases List.foldlM (LevelEst.detectStep tx radio) (-1000, "") c.levels <;> rfl

/-! ## Fingerprints -/

theorem trust_eq (m : RadioData) : trust m = some (Knn.trust m) := by
  unfold trust Knn.trust
  dsimp only
  exact div_eq (by positivity)

theorem trust_pos (m : RadioData) : 0 < Knn.trust m := by
  unfold Knn.trust
  dsimp only
  rw [divide_pos (by positivity)]
  positivity

theorem fold_total (msr : List RadioData) (a : List (String × ℝ) × ℝ) (h : 0 ≤ a.2) (hm : msr ≠ [] ∨ 0 < a.2) :
    0 < (msr.foldl (fun (a : List (String × ℝ) × ℝ) m => (StdMap.set a.1 m.id (Knn.trust m), a.2 + Knn.trust m)) a).2 := by
  induction msr generalizing a with
  | nil =>
    rcases hm with hm | hm
    · exact absurd rfl hm
    · exact hm
  | cons m l ih =>
    rw [List.foldl_cons]
    have := trust_pos m
    exact ih _ (by dsimp only; linarith) (Or.inr (by dsimp only; linarith))

theorem txWeights_eq (msr : List RadioData) :
    calcTransmittersWeights msr = some (Knn.calcTransmittersWeights msr) := by
  unfold calcTransmittersWeights Knn.calcTransmittersWeights
  dsimp only
  rw [foldlM_eq (g := fun (a : List (String × ℝ) × ℝ) m => (StdMap.set a.1 m.id (Knn.trust m), a.2 + Knn.trust m)) msr ([], 0)
    (fun a m _ => by simp [trust_eq])]
  simp only [Option.bind_eq_bind, Option.bind_some]
  refine mapM_eq _ (fun p hp => ?_)
  have hm : msr ≠ [] := by
    rintro rfl
    simp at hp
  rw [div_eq (fold_total msr ([], 0) le_rfl (Or.inl hm)).ne']
  rfl

theorem finishWeight_eq (n : ℕ) (acc : ℝ × ℝ) : finishWeight n acc = some (Knn.finishWeight n acc) := by
  unfold finishWeight Knn.finishWeight
  by_cases h1 : acc.1 > 1 / 100000000
  · have p1 : 0 < acc.1 := by linarith
    simp only [if_pos h1]
    have key : ∀ w1 : ℝ, 0 < w1 →
        (Option.bind (sqrt w1) fun w2 => if n > 0 then Option.bind (div w2 n) fun w3 => div 1 w3 else div 1 w2) =
          some (1 ÷ (if n > 0 then root w1 ÷ n else root w1)) := by
      intro w1 hw
      have hr : 0 < root w1 := by rw [root_eq hw.le]; exact Real.sqrt_pos.mpr hw
      rw [sqrt_eq' hw.le, Option.bind_some]
      by_cases hn : n > 0
      · have hn' : (n : ℝ) ≠ 0 := by positivity
        simp only [if_pos hn, div_eq hn', Option.bind_some]
        exact div_eq (by rw [divide_eq hn']; positivity)
      · simp only [if_neg hn]
        exact div_eq hr.ne'
    by_cases h2 : acc.2 > 1 / 100000000
    · have p2 : 0 < acc.2 := by linarith
      simp only [if_pos h2, div_eq p2.ne', Option.bind_eq_bind, Option.bind_some]
      exact key (acc.1 ÷ acc.2) (by rw [divide_eq p2.ne']; positivity)
    · simp only [if_neg h2, Option.bind_eq_bind, Option.bind_some]
      exact key _ p1
  · simp only [if_neg h1]

theorem filter_mapM {α β : Type} (p : α → Bool) (f : α → Option β) (g : α → β) (l : List α)
    (h : ∀ a, f a = some (g a)) :
    (l.filter (fun a => !p a)).mapM f = some (l.filterMap (fun a => if p a = true then none else some (g a))) := by
  rw [mapM_eq _ (fun a _ => h a), Option.some.injEq]
  induction l with
  | nil => rfl
  | cons a l ih =>
    cases hp : p a with
    | true => simp [hp, ih]
    | false => simp [hp, ih]

theorem rpWeights_eq (rm : List Fingerprint) (msr : List RadioData) (d : Bool) :
    calcRpWeightsKnn rm msr d = some (Knn.calcRpWeightsKnn rm msr d) := by
  unfold calcRpWeightsKnn Knn.calcRpWeightsKnn
  simp only [txWeights_eq, Option.bind_eq_bind, Option.bind_some]
  rw [filter_mapM (fun p : String × List SigStat => decide (p.2.length < 3)) _
    (fun p => (p.1, Knn.finishWeight p.2.length (Knn.accOuter (Knn.calcTransmittersWeights msr) d [] p.2 (0, 0))))]
  · simp only [decide_eq_true_eq]
  · intro p
    simp [finishWeight_eq]

theorem doubleEpsilon_pos : 0 < Knn.doubleEpsilon := by unfold Knn.doubleEpsilon; norm_num

theorem triangle_eq (ts : List RpTriangle) (rm : Radiomap) (w : List (String × ℝ)) :
    calcPositionInTriangle ts rm w = some (Knn.calcPositionInTriangle ts rm w) := by
  unfold calcPositionInTriangle Knn.calcPositionInTriangle
  cases Knn.maxElement w ts with
  | none => rfl
  | some t =>
    dsimp only
    by_cases h : Knn.weightOf w t.rp1 + Knn.weightOf w t.rp2 + Knn.weightOf w t.rp3 < Knn.doubleEpsilon
    · rw [if_pos h, if_pos h]
    · rw [if_neg h, if_neg h]
      have h0 : Knn.weightOf w t.rp1 + Knn.weightOf w t.rp2 + Knn.weightOf w t.rp3 ≠ 0 :=
        (doubleEpsilon_pos.trans_le (not_lt.mp h)).ne'
      simp only [div_eq h0, Option.bind_eq_bind, Option.bind_some]
      split_ifs
      · rfl
      · cases rm.getReferencePoint t.rp1 <;> cases rm.getReferencePoint t.rp2 <;> cases rm.getReferencePoint t.rp3 <;> rfl

theorem weightedMean_eq (rm : Radiomap) (pts : List (String × ℝ)) :
    weightedMean rm pts = some (Knn.weightedMean rm pts) := by
  unfold weightedMean Knn.weightedMean
  split
  · rename_i h; simp only [h]
  · rename_i x y norm h
    simp only [h]
    by_cases hn : norm < Knn.doubleEpsilon
    · rw [if_pos hn, if_pos hn]
    · have h0 : norm ≠ 0 := (doubleEpsilon_pos.trans_le (not_lt.mp hn)).ne'
      simp only [if_neg hn, div_eq h0, Option.bind_eq_bind, Option.bind_some]

theorem knnPosition_eq (c : Knn.Cfg) (p : Position) (l : Level) (ts : Int) (msr : List RadioData) :
    knnPosition c p l ts msr = some (Knn.calculatePosition c p l ts msr) := by
  unfold knnPosition Knn.calculatePosition
  by_cases h1 : msr.isEmpty = true
  · rw [if_pos h1, if_pos h1]
  rw [if_neg h1, if_neg h1]
  cases StdMap.find? c.refTransmitters l.id with
  | none => rfl
  | some ids =>
    dsimp only
    by_cases h2 : (Knn.getWhitelistedMeasurements ids msr).length < c.minMsr
    · rw [if_pos h2, if_pos h2]
    rw [if_neg h2, if_neg h2]
    cases StdMap.find? c.radiomaps l.id with
    | none => rfl
    | some sm =>
      simp only [rpWeights_eq, Option.bind_eq_bind, Option.bind_some]
      by_cases h3 : c.useTriangles = true
      · rw [if_pos h3, if_pos h3]
        cases StdMap.find? c.triangles l.id with
        | none => rfl
        | some ts =>
          dsimp only
          by_cases h4 : ts.isEmpty = true
          · rw [if_pos h4, if_pos h4]
          · rw [if_neg h4, if_neg h4, triangle_eq, Option.bind_some]
            cases Knn.calcPositionInTriangle ts l.radiomap (Knn.calcRpWeightsKnn sm (Knn.getWhitelistedMeasurements ids msr)
              c.useDiffMode) <;> rfl
      · rw [if_neg h3, if_neg h3]
        unfold calcKHeaviest Knn.calcKHeaviest
        rw [weightedMean_eq, Option.bind_some]
        dsimp only
        cases Knn.weightedMean l.radiomap (Knn.partialSortCopy c.sort (Knn.calcRpWeightsKnn sm
          (Knn.getWhitelistedMeasurements ids msr) c.useDiffMode) 0) <;> rfl

theorem calcWeightStep_eq (fps : List Fingerprint) (acc : ℝ × ℕ) (m : RadioData) :
    calcWeightStep fps acc m = some (Knn.calcWeightStep fps acc m) := by
  unfold calcWeightStep Knn.calcWeightStep
  dsimp only
  rw [foldlM_eq (g := fun a (f : Fingerprint) => a + 1 ÷ (|(|m.rssi| - |f.stat.mean|)| + 1 / 10)) _ (0 : ℝ)
    (fun a f _ => by
      have : (|(|m.rssi| - |f.stat.mean|)| + 1 / 10 : ℝ) ≠ 0 := by positivity
      rw [div_eq this]; rfl)]
  simp only [Option.bind_eq_bind, Option.bind_some]
  by_cases h : (fps.filter (fun f => f.tx == m.id)).length > 0
  · have h0 : ((fps.filter (fun f => f.tx == m.id)).length : ℝ) ≠ 0 := by positivity
    simp only [if_pos h, div_eq h0, Option.bind_some]
  · simp only [if_neg h]

theorem detectStepRm_eq (b : Bool) (maps : List (String × List Fingerprint)) (msr : List RadioData) (best : ℝ × String)
    (l : Level) : detectStepRm b maps msr best l = some (Knn.detectStep b maps msr best l) := by
  unfold detectStepRm Knn.detectStep
  cases StdMap.find? maps l.id with
  | none => rfl
  | some rm =>
    have e1 : calcWeight msr rm = some (Knn.calcWeight msr rm) := by
      unfold calcWeight Knn.calcWeight
      rw [foldlM_eq (g := Knn.calcWeightStep rm) _ _ (fun a m _ => calcWeightStep_eq rm a m)]
      rfl
    have e2 : calcWeightBestRp msr rm = some (Knn.calcWeightBestRp msr rm) := by
      unfold calcWeightBestRp Knn.calcWeightBestRp
      rw [rpWeights_eq]
      rfl
    dsimp only
    rw [e1, e2]
    cases b <;> rfl

theorem detectRm_eq (b : Bool) (maps : List (String × List Fingerprint)) (c : LevelCollector) (msr : List RadioData) :
    detectByRadiomap b maps c msr = some (Knn.detectByRadiomap b maps c msr) := by
  unfold detectByRadiomap Knn.detectByRadiomap
  rw [fold2_eq (g := Knn.detectStep b maps msr) _ _ (fun a l _ => detectStepRm_eq b maps msr a l)]
  cases List.foldlM (Knn.detectStep b maps msr) (0, "") c.levels <;> rfl

end Verif.Checked
