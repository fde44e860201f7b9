import Verif.Fp.BestFloorModel
import Verif.Fp.KnnProps
import Verif.Knn.EstimatorProps

/-!
# C164: the floor by the best reference point in floating point
-/

namespace Verif.Fp

open Verif Verif.Levels Verif.Knn

variable (R : Rounding)

/-- Every floor has signals of usual size (`SaneRadio`), and no reference point has a sum of shares near the threshold of 10⁻⁸ (`Clear`). -/
structure UsualPoints (c : LevelCollector) (msr : List RadioData) : Prop where
  sane : ∀ l ∈ c.levels, SaneRadio (fingerprintsOf c l.id) msr
  clear : ∀ l ∈ c.levels, Clear (fingerprintsOf c l.id) msr true

theorem rpWeightsF_sorted (trustF : RadioData → ℝ) (fps : List Fingerprint) (msr : List RadioData) (d : Bool) :
    StdMap.Sorted (rpWeightsF R trustF fps msr d) := by
  have h2 := (rpStatistics_find fps msr "").2
  unfold rpWeightsF StdMap.Sorted at *
  dsimp only
  rw [List.pairwise_filterMap]
  refine h2.imp ?_
  intro a b hab p hp q hq
  split_ifs at hp hq
  simp only [Option.some.injEq] at hp hq
  rw [← hp, ← hq]; exact hab

/-- The loop over the weights gives the largest one, or the first value. -/
theorem loop_max : ∀ (w : List (String × ℝ)) (b : ℝ),
    let r := w.foldl (fun b p => if p.2 > b then p.2 else b) b
    b ≤ r ∧ (∀ p ∈ w, p.2 ≤ r) ∧ (r = b ∨ ∃ p ∈ w, r = p.2) := by
  intro w
  induction w with
  | nil => intro b; simp
  | cons p w ih =>
    intro b
    dsimp only
    rw [List.foldl_cons]
    obtain ⟨h1, h2, h3⟩ := ih (if p.2 > b then p.2 else b)
    set r := w.foldl (fun b p => if p.2 > b then p.2 else b) (if p.2 > b then p.2 else b) with hr
    have h4 : b ≤ (if p.2 > b then p.2 else b) ∧ p.2 ≤ (if p.2 > b then p.2 else b) := by
      split_ifs with h
      · exact ⟨h.le, le_rfl⟩
      · exact ⟨le_rfl, not_lt.mp h⟩
    refine ⟨h4.1.trans h1, ?_, ?_⟩
    · intro q hq
      rcases List.mem_cons.mp hq with rfl | hq
      · exact h4.2.trans h1
      · exact h2 q hq
    · rcases h3 with h3 | ⟨q, hq, h3⟩
      · by_cases h : p.2 > b
        · right; exact ⟨p, by simp, by rw [h3, if_pos h]⟩
        · left; rw [h3, if_neg h]
      · right; exact ⟨q, by simp [hq], h3⟩

theorem best_within {trustF : RadioData → ℝ} {fps : List Fingerprint} {msr : List RadioData} (hs : SaneRadio fps msr)
    (ht : Accurate trustF msr) (hc : Clear fps msr true) :
    Within (29 * 10 ^ 8) (calcWeightBestRpF R trustF msr fps) (calcWeightBestRp msr fps) := by
  have hw := weights_within R trustF fps msr true hs ht hc
  obtain ⟨a1, a2, a3⟩ := loop_max (rpWeightsF R trustF fps msr true) 0
  obtain ⟨b1, b2, b3⟩ := loop_max (calcRpWeightsKnn fps msr true) 0
  unfold calcWeightBestRpF calcWeightBestRp
  have hg := grow_pos (29 * 10 ^ 8)
  refine ⟨a1, b1, ?_, ?_⟩
  · rcases a3 with h | ⟨p, hp, h⟩
    · rw [h]; exact mul_nonneg b1 hg.le
    · rw [h]
      have hf := StdMap.find?_of_mem (rpWeightsF_sorted R trustF fps msr true) (k := p.1) (v := p.2) hp
      by_cases h3 : 3 ≤ (matched fps msr p.1).length
      · obtain ⟨w', w, e1, e2, hW⟩ := (hw p.1).2 h3
        rw [hf] at e1
        cases e1
        exact hW.le.trans (mul_le_mul_of_nonneg_right (b2 _ (StdMap.mem_of_find? e2)) hg.le)
      · have := ((hw p.1).1 (not_le.mp h3)).1
        rw [hf] at this
        exact absurd this (by simp)
  · rcases b3 with h | ⟨p, hp, h⟩
    · rw [h]; exact mul_nonneg a1 hg.le
    · rw [h]
      have hf := StdMap.find?_of_mem (calcRpWeightsKnn_sorted fps msr true) (k := p.1) (v := p.2) hp
      by_cases h3 : 3 ≤ (matched fps msr p.1).length
      · obtain ⟨w', w, e1, e2, hW⟩ := (hw p.1).2 h3
        rw [hf] at e2
        cases e2
        exact hW.ge.trans (mul_le_mul_of_nonneg_right (a2 _ (StdMap.mem_of_find? e1)) hg.le)
      · have := ((hw p.1).1 (not_le.mp h3)).2
        rw [hf] at this
        exact absurd this (by simp)

/-- The rounded score of a floor. -/
noncomputable def bestScoreF (trustF : RadioData → ℝ) (c : LevelCollector) (msr : List RadioData) (l : Level) : ℝ :=
  calcWeightBestRpF R trustF msr (fingerprintsOf c l.id)

/-- The exact score of a floor: the largest weight of a reference point, described by `C28_best_rp`. -/
noncomputable def bestScore (c : LevelCollector) (msr : List RadioData) (l : Level) : ℝ := calcWeightBestRp msr (fingerprintsOf c l.id)

theorem bestF_first (trustF : RadioData → ℝ) (c : LevelCollector) (msr : List RadioData) :
    ∃ r, FirstMax (fun _ => True) (bestScoreF R trustF c msr) 0 c.levels r ∧
      detectByBestRpF R trustF (getLevelsRadiomaps c) c msr = some (match r with | some l => l.id | none => "") := by
  obtain ⟨r, hr, hf⟩ := firstMax_fold (fun _ : Level => True) (bestScoreF R trustF c msr) Level.id 0 "" c.levels
  refine ⟨r, hr, ?_⟩
  have hfold : ∀ (ls : List Level) (b : ℝ × String), (∀ l ∈ ls, l ∈ c.levels) →
      ls.foldlM (bestStepF R trustF (getLevelsRadiomaps c) msr) b = some (ls.foldl (fun b l => if True then
        (if bestScoreF R trustF c msr l > b.1 then (bestScoreF R trustF c msr l, l.id) else b) else b) b) := by
    intro ls
    induction ls with
    | nil => intro b _; rfl
    | cons l ls ih =>
      intro b h
      have hfind : StdMap.find? (getLevelsRadiomaps c) l.id = some (fingerprintsOf c l.id) := by
        rw [radiomaps_find]
        unfold fingerprintsOf
        cases hfi : c.levels.reverse.find? (fun l' => l'.id == l.id) with
        | none =>
          rw [List.find?_eq_none] at hfi
          exact absurd (by simp) (hfi l (by simpa using h l (by simp)))
        | some l' => rfl
      have hstep : bestStepF R trustF (getLevelsRadiomaps c) msr b l =
          some (if bestScoreF R trustF c msr l > b.1 then (bestScoreF R trustF c msr l, l.id) else b) := by
        unfold bestStepF
        rw [hfind]
        rfl
      rw [List.foldlM_cons, hstep, List.foldl_cons, if_pos trivial]
      exact ih _ (fun k hk => h k (by simp [hk]))
  unfold detectByBestRpF
  rw [hfold _ _ (fun _ h => h), hf]
  cases r <;> rfl

/-- **C164.** With rounding the weight of the best reference point of a floor is within 10⁻⁶ of the exact one, relatively; so it is positive
exactly where the exact one is. -/
theorem C164_score {trustF : RadioData → ℝ} {c : LevelCollector} {msr : List RadioData} (hs : UsualPoints c msr) (ht : Accurate trustF msr)
    (l : Level) (hl : l ∈ c.levels) :
    |bestScoreF R trustF c msr l - bestScore c msr l| ≤ 1 / 10 ^ 6 * bestScore c msr l ∧
      (0 < bestScoreF R trustF c msr l ↔ 0 < bestScore c msr l) := by
  have h := best_within R (hs.sane l hl) ht (hs.clear l hl)
  have h1 := h.near (by norm_num)
  have hy := h.y0
  unfold bestScoreF bestScore
  exact ⟨h1.trans (by linarith), h.symm.pos, h.pos⟩

/-- **C164.** With rounding the detection does not throw. It answers a floor with a weighted reference point whose weight is at least the best one
up to three parts in a million, or the empty id, when no floor has a weighted reference point. -/
theorem C164_near {trustF : RadioData → ℝ} {c : LevelCollector} {msr : List RadioData} (hs : UsualPoints c msr) (ht : Accurate trustF msr) :
    (detectByBestRpF R trustF (getLevelsRadiomaps c) c msr = some "" ∧
      ∀ l ∈ c.levels, ∀ rp, (matched (fingerprintsOf c l.id) msr rp).length < 3) ∨
    ∃ l ∈ c.levels, detectByBestRpF R trustF (getLevelsRadiomaps c) c msr = some l.id ∧
      (∃ rp, 3 ≤ (matched (fingerprintsOf c l.id) msr rp).length) ∧
      ∀ l' ∈ c.levels, bestScore c msr l' * (1 - 3 / 10 ^ 6) ≤ bestScore c msr l := by
  obtain ⟨r, h1, h2⟩ := bestF_first R trustF c msr
  have hnn : ∀ l ∈ c.levels, 0 ≤ bestScore c msr l := fun l hl => (best_within R (hs.sane l hl) ht (hs.clear l hl)).y0
  cases r with
  | none =>
    left
    refine ⟨h2, fun l hl => ?_⟩
    rcases C28_best_rp msr (fingerprintsOf c l.id) with h3 | ⟨-, -, h3⟩
    · exact h3.1
    · have := (C164_score R hs ht l hl).2.mpr h3
      exact absurd (h1 l hl trivial) (by linarith)
  | some l =>
    right
    obtain ⟨bef, aft, hlv, -, hb, h3, h4⟩ := h1
    have hl : l ∈ c.levels := by rw [hlv]; simp
    obtain ⟨x1, x2⟩ := abs_le.mp (C164_score R hs ht l hl).1
    have hpos := (C164_score R hs ht l hl).2.mp hb
    refine ⟨l, hl, h2, ?_, fun l' hl' => ?_⟩
    · rcases C28_best_rp msr (fingerprintsOf c l.id) with h5 | ⟨⟨rp, h5, -⟩, -⟩
      · unfold bestScore at hpos
        linarith [h5.2]
      · exact ⟨rp, h5⟩
    · obtain ⟨y1, y2⟩ := abs_le.mp (C164_score R hs ht l' hl').1
      have hnl := hnn l' hl'
      have : bestScoreF R trustF c msr l' ≤ bestScoreF R trustF c msr l := by
        rw [hlv] at hl'
        rcases List.mem_append.mp hl' with hm | hm
        · exact (h3 l' hm trivial).le
        · rcases List.mem_cons.mp hm with rfl | hm
          · exact le_rfl
          · exact h4 l' hm trivial
      have k1 : bestScore c msr l' * (1 - 1 / 10 ^ 6) ≤ bestScore c msr l * (1 + 1 / 10 ^ 6) := by linarith
      nlinarith

/-- **C164.** Where the best reference point of one floor leads by more than three parts in a million, rounding does not change the answer: both
answer that floor. -/
theorem C164_same {trustF : RadioData → ℝ} {c : LevelCollector} {msr : List RadioData} (hs : UsualPoints c msr) (ht : Accurate trustF msr)
    (l : Level) (hl : l ∈ c.levels) (h0 : 0 < bestScore c msr l)
    (hlead : ∀ l' ∈ c.levels, l' ≠ l → bestScore c msr l' < bestScore c msr l * (1 - 3 / 10 ^ 6)) :
    detectByBestRpF R trustF (getLevelsRadiomaps c) c msr = some l.id ∧
      detectByRadiomap true (getLevelsRadiomaps c) c msr = some l.id := by
  constructor
  · rcases C164_near R hs ht with ⟨-, h1⟩ | ⟨l1, m1, e1, -, b1⟩
    · rcases C28_best_rp msr (fingerprintsOf c l.id) with h5 | ⟨⟨rp, h5, -⟩, -⟩
      · unfold bestScore at h0
        linarith [h5.2]
      · exact absurd (h1 l hl rp) (by omega)
    · by_cases he : l1 = l
      · rw [← he]; exact e1
      · have := hlead l1 m1 he
        have := b1 l hl
        linarith
  · obtain ⟨r, h2, h1⟩ := C28_level true c msr
    simp only [if_true] at h1
    cases r with
    | none =>
      have := h1 l hl trivial
      unfold bestScore at h0
      exact absurd this (by linarith)
    | some l1 =>
      obtain ⟨bef, aft, hlv, -, hb, h3, h4⟩ := h1
      by_cases he : l1 = l
      · rw [← he]; exact h2
      · have x := hlead l1 (by rw [hlv]; simp) he
        have : bestScore c msr l ≤ bestScore c msr l1 := by
          unfold bestScore
          rw [hlv] at hl
          rcases List.mem_append.mp hl with hm | hm
          · exact (h3 l hm trivial).le
          · rcases List.mem_cons.mp hm with rfl | hm
            · exact le_rfl
            · exact h4 l hm trivial
        linarith

open KnnWitness Witness2 in
/-- The hypotheses of `C164_same` are met: two floors, the second with three reference points of three fingerprints each, the first with two
fingerprints. -/
theorem C164_example (g : LevelGeometry) (gr : NavGraph.Graph Geo.XYPoint) :
    let l1 : Level := ⟨"L1", ⟨0, 0⟩, [], mkRadiomap [⟨"a", ⟨0, 0⟩, Witness2.fp.take 2⟩], g, gr⟩
    let l2 : Level := ⟨"L2", ⟨0, 0⟩, [], mkRadiomap KnnWitness.rps, g, gr⟩
    let c : LevelCollector := ⟨[l1, l2], []⟩
    detectByBestRpF R trustSpec (getLevelsRadiomaps c) c msr = some "L2" := by
  intro l1 l2 c
  have f2 : fingerprintsOf c "L2" = fps := by
    unfold fingerprintsOf
    simp [c, l1, l2]
    rfl
  obtain ⟨f1, f1l⟩ : fingerprintsOf c "L1" = levelRadiomap l1 ∧ levelRadiomap l1 = fps.take 2 := by
    constructor
    · unfold fingerprintsOf
      simp [c, l1, l2]
    · rfl
  rw [f1l] at f1
  have hst : ∀ f ∈ fps, f.stat = Witness.st := by
    intro f hf
    simp only [fps, List.mem_cons, List.not_mem_nil, or_false] at hf
    rcases hf with rfl | rfl | rfl | rfl | rfl | rfl | rfl | rfl | rfl <;> rfl
  have hclear : ∀ fs, Clear fs msr true := by
    intro fs
    refine C158_clear fs msr true 100 ?_ (by simp [msr]; norm_num)
    have key : ∀ m ∈ msr, trustSpec m = (10 : ℝ) ^ (-(3 / 50 : ℝ) * (-10 - m.rssi)) ∧ -80 ≤ m.rssi ∧ m.rssi ≤ -60 := by
      intro m hm
      simp only [msr, List.mem_cons, List.not_mem_nil, or_false] at hm
      rcases hm with rfl | rfl | rfl <;> refine ⟨?_, by norm_num, by norm_num⟩ <;> unfold trustSpec <;> norm_num
    intro m hm m' hm'
    obtain ⟨e, a1, -⟩ := key m hm
    obtain ⟨e', -, a2⟩ := key m' hm'
    rw [e, e', show (100 : ℝ) = (10 : ℝ) ^ (2 : ℝ) by norm_num, ← Real.rpow_add (by norm_num)]
    exact Real.rpow_le_rpow_of_exponent_le (by norm_num) (by linarith)
  have hsane : ∀ fs : List Fingerprint, (∀ f ∈ fs, f ∈ fps) → fs.length ≤ 9 → SaneRadio fs msr := by
    intro fs hsub hlen
    constructor
    · intro f hf
      rw [hst f (hsub f hf)]
      simp only [Witness.st]
      norm_num
    · intro m hm
      simp only [msr, List.mem_cons, List.not_mem_nil, or_false] at hm
      rcases hm with rfl | rfl | rfl <;> norm_num
    · intro m hm
      simp only [msr, List.mem_cons, List.not_mem_nil, or_false] at hm
      rcases hm with rfl | rfl | rfl <;> norm_num
    · simp [msr]
    · intro rp
      have := matched_length_le fs msr rp
      have : (matched fs msr rp).length ≤ 3 * fs.length := by simpa [msr] using this
      omega
  have ha : Accurate trustSpec msr := by
    intro m _
    rw [sub_self, abs_zero]
    have : 0 < trustSpec m := by unfold trustSpec; positivity
    positivity
  have hs : UsualPoints c msr := by
    constructor <;> intro l hl <;> simp only [c, List.mem_cons, List.not_mem_nil, or_false] at hl <;> rcases hl with rfl | rfl
    · rw [show l1.id = "L1" from rfl, f1]
      exact hsane _ (fun f hf => List.mem_of_mem_take hf) (by simp)
    · rw [show l2.id = "L2" from rfl, f2]
      exact hsane _ (fun f hf => hf) (by simp [fps])
    · exact hclear _
    · exact hclear _
  have s1 : bestScore c msr l1 = 0 := by
    unfold bestScore
    rw [show l1.id = "L1" from rfl, f1]
    rcases C28_best_rp msr (fps.take 2) with h | ⟨⟨rp, h, -⟩, -⟩
    · exact h.2
    · exfalso
      by_cases hrp : "a" = rp
      · subst hrp
        simp [matched, msr, fps] at h
      · simp [matched, msr, fps, hrp] at h
  have s2 : 0 < bestScore c msr l2 := by
    unfold bestScore
    rw [show l2.id = "L2" from rfl, f2]
    rcases C28_best_rp msr fps with h | h
    · have := h.1 "a"
      simp [matched, msr, fps] at this
    · exact h.2.2
  refine (C164_same R hs ha l2 (by simp [c]) s2 ?_).1
  intro l' hl' hne
  simp only [c, List.mem_cons, List.not_mem_nil, or_false] at hl'
  rcases hl' with rfl | rfl
  · rw [s1]; nlinarith
  · exact absurd rfl hne

end Verif.Fp
