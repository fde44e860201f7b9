import Verif.Fp.PrintFloorModel
import Verif.Fp.KnnLemmas
import Verif.Fp.FuseProps
import Verif.Knn.EstimatorProps

/-!
# C163: the floor by fingerprints in floating point
-/

namespace Verif.Fp

open Verif Verif.Levels Verif.Knn

variable (R : Rounding)

/-- Measurements and a radio map of usual size: at most a million of each, with signal levels up to 1000. -/
structure UsualPrints (c : LevelCollector) (msr : List RadioData) : Prop where
  count : msr.length ≤ 10 ^ 6
  rssi : ∀ m ∈ msr, |m.rssi| ≤ 1000
  prints : ∀ l ∈ c.levels, (fingerprintsOf c l.id).length ≤ 10 ^ 6
  mean : ∀ l ∈ c.levels, ∀ f ∈ fingerprintsOf c l.id, |f.stat.mean| ≤ 1000

theorem grow_million {k : ℕ} (h : k ≤ 2 * 10 ^ 6 + 5) : grow ^ k ≤ 1 + 49 / 10 ^ 11 := by
  have h1 : grow ^ k ≤ Real.exp (2 * u * k) := by
    have : grow ≤ Real.exp (2 * u) := by
      have := Real.add_one_le_exp (2 * u)
      unfold grow; linarith
    calc grow ^ k ≤ Real.exp (2 * u) ^ k := pow_le_pow_left₀ (le_trans zero_le_one grow_one) this k
      _ = Real.exp (2 * u * k) := by rw [← Real.exp_nat_mul]; ring_nf
  have hk : (k : ℝ) ≤ 2 * 10 ^ 6 + 5 := by exact_mod_cast h
  have h2 : 2 * u * k ≤ 481 / 10 ^ 12 := by
    have := u_tight
    calc 2 * u * k ≤ 2 * (12 / 10 ^ 17) * (2 * 10 ^ 6 + 5) := by gcongr
      _ ≤ _ := by norm_num
  have h3 : 1 - 481 / 10 ^ 12 ≤ Real.exp (-(2 * u * k)) := by
    have := Real.add_one_le_exp (-(2 * u * k))
    linarith
  have h4 : Real.exp (2 * u * k) * Real.exp (-(2 * u * k)) = 1 := by rw [← Real.exp_add]; simp
  have h5 := Real.exp_pos (2 * u * k)
  have h6 : Real.exp (2 * u * k) * (1 - 481 / 10 ^ 12) ≤ 1 := (mul_le_mul_of_nonneg_left h3 h5.le).trans h4.le
  linarith

/-- The exact closeness of a measured to a stored signal. -/
noncomputable def closeTerm (rssi mean : ℝ) : ℝ := 1 / (|(|rssi| - |mean|)| + 1 / 10)

theorem low_small : 2 * low ≤ 1 / 10000 := by unfold low; norm_num

theorem closeTerm_low {a b : ℝ} (ha : |a| ≤ 1000) (hb : |b| ≤ 1000) : 1 / 2001 ≤ closeTerm a b := by
  unfold closeTerm
  have : |(|a| - |b|)| ≤ 2000 := abs_le.mpr ⟨by linarith [abs_nonneg a, abs_nonneg b], by linarith [abs_nonneg a, abs_nonneg b]⟩
  have h0 := abs_nonneg (|a| - |b|)
  exact one_div_le_one_div_of_le (by linarith) (by linarith)

theorem closeTerm_within {a b : ℝ} (ha : |a| ≤ 1000) (hb : |b| ≤ 1000) : Within 3 (closeTermF R a b) (closeTerm a b) := by
  have hu := u_pos
  have hut := u_tight
  have hlow := low_small
  set d := |a| - |b| with hd
  have h0 := abs_nonneg d
  have n1 := near_by R (le_refl |d|)
  have n2 := near_by R (x := (1 / 10 : ℝ)) (B := 1 / 10) (by rw [abs_of_pos] <;> norm_num)
  have n3 : |(|R.rnd d| - |d|)| ≤ u * |d| + u / 200 := (abs_abs_sub_abs_le_abs_sub _ _).trans n1
  obtain ⟨p1, p2⟩ := abs_le.mp n3
  obtain ⟨q1, q2⟩ := abs_le.mp n2
  have w1 : Within 1 (|R.rnd d| + R.rnd (1 / 10)) (|d| + 1 / 10) := by
    have hx : 0 ≤ R.rnd (1 / 10) := rnd_nonneg R (by norm_num)
    refine ⟨add_nonneg (abs_nonneg _) hx, by linarith, ?_, ?_⟩
    · rw [pow_one]; unfold grow
      have : (0:ℝ) ≤ u * |d| := by positivity
      nlinarith
    · rw [pow_one]; unfold grow
      have k1 : |d| + 1 / 10 - (u * |d| + u * (1 / 10) + u / 100) ≤ |R.rnd d| + R.rnd (1 / 10) := by linarith
      have k2 : (|d| + 1 / 10) * (1 - 11 / 10 * u) ≤ |R.rnd d| + R.rnd (1 / 10) := by
        have : (0:ℝ) ≤ u * |d| := by positivity
        nlinarith
      have k3 : (1:ℝ) ≤ (1 - 11 / 10 * u) * (1 + 2 * u) := by nlinarith
      calc |d| + 1 / 10 ≤ (|d| + 1 / 10) * ((1 - 11 / 10 * u) * (1 + 2 * u)) := le_mul_of_one_le_right (by linarith) k3
        _ = (|d| + 1 / 10) * (1 - 11 / 10 * u) * (1 + 2 * u) := by ring
        _ ≤ _ := mul_le_mul_of_nonneg_right k2 (by linarith)
  have w2 := w1.rnd' R (by norm_num) (by linarith)
  have hy : 0 < |d| + 1 / 10 := by linarith
  have w3 := w2.inv hy
  have hne : R.rnd (|R.rnd d| + R.rnd (1 / 10)) ≠ 0 := (w2.pos hy).ne'
  have hl := closeTerm_low ha hb
  unfold closeTerm at hl ⊢
  unfold closeTermF
  rw [divide_eq hne]
  exact w3.rnd' R (by norm_num) (by rw [← hd] at hl; linarith)

theorem sum_within {α : Type*} (f' f : α → ℝ) {K : ℕ} : ∀ (l : List α) (j : ℕ) (s' s : ℝ), K + j + l.length ≤ 3 * 10 ^ 9 →
    (∀ x ∈ l, Within K (f' x) (f x)) → (∀ x ∈ l, 2 * low ≤ f x) → Within (K + j) s' s →
    Within (K + j + l.length) (l.foldl (fun a x => R.rnd (a + f' x)) s') (s + (l.map f).sum) := by
  intro l
  induction l with
  | nil => intro j s' s _ _ _ h; simpa using h
  | cons x l ih =>
    intro j s' s hk hw hl h
    rw [List.length_cons] at hk
    have h1 := (h.add ((hw x (by simp)).mono (by omega))).rnd' R (by omega) (by have := hl x (by simp); linarith [h.y0])
    have := ih (j + 1) _ _ (by omega) (fun y hy => hw y (by simp [hy])) (fun y hy => hl y (by simp [hy])) h1
    rw [List.foldl_cons, List.map_cons, List.sum_cons, List.length_cons, ← add_assoc s]
    exact this.mono (by omega)

theorem closeness_within {fps : List Fingerprint} {m : RadioData} (hn : fps.length ≤ 10 ^ 6) (ha : |m.rssi| ≤ 1000)
    (hb : ∀ f ∈ fps, |f.stat.mean| ≤ 1000) (hp : 0 < (fps.filter (fun f => f.tx == m.id)).length) :
    Within (fps.length + 4) (R.rnd ((fps.filter (fun f => f.tx == m.id)).foldl (fun a f => R.rnd (a + closeTermF R m.rssi f.stat.mean)) 0 ÷
      ((fps.filter (fun f => f.tx == m.id)).length : ℝ))) (closeness fps m) ∧ 1 / 2001 ≤ closeness fps m := by
  have hlow := low_small
  unfold closeness
  dsimp only
  set fs := fps.filter (fun f => f.tx == m.id) with hfs
  have hlen : fs.length ≤ fps.length := List.length_filter_le _ _
  have hmem : ∀ f ∈ fs, |f.stat.mean| ≤ 1000 := fun f hf => hb f (List.mem_of_mem_filter hf)
  have hpr : (0:ℝ) < fs.length := by exact_mod_cast hp
  have h1 : (1:ℝ) / 2001 ≤ (fs.map (fun f => closeTerm m.rssi f.stat.mean)).sum / fs.length := by
    rw [le_div_iff₀ hpr]
    have := List.card_nsmul_le_sum (fs.map (fun f => closeTerm m.rssi f.stat.mean)) (1 / 2001) (by
      intro x hx
      obtain ⟨f, hf, rfl⟩ := List.mem_map.mp hx
      exact closeTerm_low ha (hmem f hf))
    rw [List.length_map, nsmul_eq_mul] at this
    linarith
  have h2 := sum_within R (fun f : Fingerprint => closeTermF R m.rssi f.stat.mean) (fun f => closeTerm m.rssi f.stat.mean) (K := 3) fs 0 0 0
    (by omega) (fun f hf => closeTerm_within R ha (hmem f hf)) (fun f hf => by have := closeTerm_low ha (hmem f hf); linarith)
    (Within.refl le_rfl)
  rw [zero_add] at h2
  have h3 := (h2.div (Within.refl (k := 0) hpr.le) hpr).rnd' R (by omega) (by linarith)
  rw [divide_eq hpr.ne']
  exact ⟨h3.mono (by omega), h1⟩

theorem step_hit (fps : List Fingerprint) (m : RadioData) :
    0 < (fps.filter (fun f => f.tx == m.id)).length ↔ fps.any (fun f => f.tx == m.id) = true := by
  rw [List.length_pos_iff_exists_mem]
  simp

theorem steps_within {fps : List Fingerprint} (hn : fps.length ≤ 10 ^ 6) (hb : ∀ f ∈ fps, |f.stat.mean| ≤ 1000) :
    ∀ (msr : List RadioData) (j : ℕ) (s' s : ℝ) (n : ℕ), j + msr.length ≤ 10 ^ 6 → (∀ m ∈ msr, |m.rssi| ≤ 1000) →
      Within (fps.length + 4 + j) s' s → (n ≠ 0 → 1 / 2001 ≤ s) →
      let r := msr.foldl (calcWeightStepF R fps) (s', n)
      Within (fps.length + 4 + j + msr.length) r.1 (s + ((hits fps msr).map (closeness fps)).sum) ∧ r.2 = n + (hits fps msr).length ∧
        (r.2 ≠ 0 → 1 / 2001 ≤ s + ((hits fps msr).map (closeness fps)).sum) := by
  have hlow := low_small
  intro msr
  induction msr with
  | nil => intro j s' s n _ _ h h0; simp only [hits, List.filter_nil, List.map_nil, List.sum_nil, add_zero, List.length_nil, List.foldl_nil]; exact ⟨h, trivial, h0⟩
  | cons m msr ih =>
    intro j s' s n hj hr h h0
    rw [List.length_cons] at hj
    dsimp only
    rw [List.foldl_cons]
    by_cases hp : 0 < (fps.filter (fun f => f.tx == m.id)).length
    · have hh : hits fps (m :: msr) = m :: hits fps msr := by
        exact List.filter_cons_of_pos (p := fun m : RadioData => fps.any (fun f => f.tx == m.id)) ((step_hit fps m).mp hp)
      obtain ⟨c1, c2⟩ := closeness_within R hn (hr m (by simp)) hb hp
      have h1 := (h.add (c1.mono (by omega))).rnd' R (by omega) (by linarith [h.y0])
      have h2 := ih (j + 1) _ _ (n + 1) (by omega) (fun y hy => hr y (by simp [hy])) h1 (fun _ => by linarith [h.y0])
      have he : calcWeightStepF R fps (s', n) m = (R.rnd (s' + R.rnd ((fps.filter (fun f => f.tx == m.id)).foldl
          (fun a f => R.rnd (a + closeTermF R m.rssi f.stat.mean)) 0 ÷ ((fps.filter (fun f => f.tx == m.id)).length : ℝ))), n + 1) := by
        unfold calcWeightStepF
        dsimp only
        rw [if_pos hp, if_pos hp]
      rw [he, hh, List.map_cons, List.sum_cons, ← add_assoc s, List.length_cons, List.length_cons]
      dsimp only at h2
      obtain ⟨a1, a2, a3⟩ := h2
      exact ⟨a1.mono (by omega), by omega, a3⟩
    · have hh : hits fps (m :: msr) = hits fps msr := by
        exact List.filter_cons_of_neg (p := fun m : RadioData => fps.any (fun f => f.tx == m.id)) (fun h => hp ((step_hit fps m).mpr h))
      have he : calcWeightStepF R fps (s', n) m = (s', n) := by
        unfold calcWeightStepF
        dsimp only
        rw [if_neg hp, if_neg hp]
      have h2 := ih j s' s n (by omega) (fun y hy => hr y (by simp [hy])) h h0
      rw [he, hh, List.length_cons]
      dsimp only at h2
      obtain ⟨a1, a2, a3⟩ := h2
      exact ⟨a1.mono (by omega), a2, a3⟩

theorem weight_within {fps : List Fingerprint} {msr : List RadioData} (hn : fps.length ≤ 10 ^ 6) (hb : ∀ f ∈ fps, |f.stat.mean| ≤ 1000)
    (hm : msr.length ≤ 10 ^ 6) (hr : ∀ m ∈ msr, |m.rssi| ≤ 1000) :
    Within (2 * 10 ^ 6 + 5) (calcWeightF R msr fps) (levelScore fps msr) := by
  have hlow := low_small
  obtain ⟨h1, h2, h3⟩ := steps_within R hn hb msr 0 0 0 0 (by omega) hr (Within.refl le_rfl) (by simp)
  rw [zero_add] at h1 h2 h3
  unfold calcWeightF levelScore
  dsimp only
  rw [← h2]
  set r := msr.foldl (calcWeightStepF R fps) (0, 0) with hrr
  by_cases h0 : r.2 = 0
  · rw [h0, Nat.cast_zero, mul_zero, mul_zero, R.zero]
    exact Within.refl le_rfl
  · have hc : (1:ℝ) ≤ r.2 := by exact_mod_cast Nat.one_le_iff_ne_zero.mpr h0
    have h4 := h3 h0
    have h5 := (h1.mul (Within.refl (k := 0) (x := (r.2 : ℝ)) (by linarith))).rnd' R (by omega) (by nlinarith)
    exact h5.mono (by omega)

/-- The rounded score of a floor. -/
noncomputable def printScoreF (c : LevelCollector) (msr : List RadioData) (l : Level) : ℝ := calcWeightF R msr (fingerprintsOf c l.id)

/-- The exact score of a floor: the number of measurements with a fingerprint there, times the sum of their mean closeness. -/
noncomputable def printScore (c : LevelCollector) (msr : List RadioData) (l : Level) : ℝ := levelScore (fingerprintsOf c l.id) msr

theorem printF_first (c : LevelCollector) (msr : List RadioData) :
    ∃ r, FirstMax (fun _ => True) (printScoreF R c msr) 0 c.levels r ∧
      detectByRadiomapF R (getLevelsRadiomaps c) c msr = some (match r with | some l => l.id | none => "") := by
  obtain ⟨r, hr, hf⟩ := firstMax_fold (fun _ : Level => True) (printScoreF R c msr) Level.id 0 "" c.levels
  refine ⟨r, hr, ?_⟩
  have hfold : ∀ (ls : List Level) (b : ℝ × String), (∀ l ∈ ls, l ∈ c.levels) → ls.foldlM (printStepF R (getLevelsRadiomaps c) msr) b = some
      (ls.foldl (fun b l => if True then (if printScoreF R c msr l > b.1 then (printScoreF R c msr l, l.id) else b) else b) b) := by
    intro ls
    induction ls with
    | nil => intro b _; rfl
    | cons l ls ih =>
      intro b h
      have hfind : StdMap.find? (getLevelsRadiomaps c) l.id = some (fingerprintsOf c l.id) := by
        rw [radiomaps_find]
        unfold fingerprintsOf
        cases hfi : c.levels.reverse.find? (fun l' => l'.id == l.id) with
        | none =>
          rw [List.find?_eq_none] at hfi
          exact absurd (by simp) (hfi l (by simpa using h l (by simp)))
        | some l' => rfl
      have hstep : printStepF R (getLevelsRadiomaps c) msr b l =
          some (if printScoreF R c msr l > b.1 then (printScoreF R c msr l, l.id) else b) := by
        unfold printStepF
        rw [hfind]
        rfl
      rw [List.foldlM_cons, hstep, List.foldl_cons, if_pos trivial]
      exact ih _ (fun k hk => h k (by simp [hk]))
  unfold detectByRadiomapF
  rw [hfold _ _ (fun _ h => h), hf]
  cases r <;> rfl

/-- **C163.** With rounding the score of a floor is within 5·10⁻¹⁰ of the exact score, relatively; so it is positive exactly where the exact one is. -/
theorem C163_score {c : LevelCollector} {msr : List RadioData} (hs : UsualPrints c msr) (l : Level) (hl : l ∈ c.levels) :
    |printScoreF R c msr l - printScore c msr l| ≤ 5 / 10 ^ 10 * printScore c msr l ∧ (0 < printScoreF R c msr l ↔ 0 < printScore c msr l) := by
  have h := weight_within R (hs.prints l hl) (hs.mean l hl) hs.count hs.rssi
  have hg := grow_million (le_refl (2 * 10 ^ 6 + 5))
  have h1 := h.le.trans (mul_le_mul_of_nonneg_left hg h.y0)
  have h2 := h.ge.trans (mul_le_mul_of_nonneg_left hg h.x0)
  have hy := h.y0
  unfold printScoreF printScore
  refine ⟨abs_le.mpr ⟨by nlinarith, by nlinarith⟩, h.symm.pos, h.pos⟩

/-- **C163.** With rounding the detection does not throw. It answers a floor where a measurement has a fingerprint and whose score is at least
the best one up to one part in 10⁹, or the empty id, when all scores are zero. -/
theorem C163_near {c : LevelCollector} {msr : List RadioData} (hs : UsualPrints c msr) :
    (detectByRadiomapF R (getLevelsRadiomaps c) c msr = some "" ∧ ∀ l ∈ c.levels, printScore c msr l = 0) ∨
    ∃ l ∈ c.levels, detectByRadiomapF R (getLevelsRadiomaps c) c msr = some l.id ∧ 0 < printScore c msr l ∧
      ∀ l' ∈ c.levels, printScore c msr l' * (1 - 1 / 10 ^ 9) ≤ printScore c msr l := by
  obtain ⟨r, h1, h2⟩ := printF_first R c msr
  have hnn : ∀ l ∈ c.levels, 0 ≤ printScore c msr l := fun l hl =>
    (weight_within R (hs.prints l hl) (hs.mean l hl) hs.count hs.rssi).y0
  cases r with
  | none =>
    left
    refine ⟨h2, fun l hl => ?_⟩
    by_contra hne
    have := (C163_score R hs l hl).2.mpr (lt_of_le_of_ne (hnn l hl) (Ne.symm hne))
    exact absurd (h1 l hl trivial) (by linarith)
  | some l =>
    right
    obtain ⟨bef, aft, hlv, -, hb, h3, h4⟩ := h1
    have hl : l ∈ c.levels := by rw [hlv]; simp
    obtain ⟨x1, x2⟩ := abs_le.mp (C163_score R hs l hl).1
    refine ⟨l, hl, h2, (C163_score R hs l hl).2.mp hb, fun l' hl' => ?_⟩
    obtain ⟨y1, y2⟩ := abs_le.mp (C163_score R hs l' hl').1
    have hnl := hnn l' hl'
    have : printScoreF R c msr l' ≤ printScoreF R c msr l := by
      rw [hlv] at hl'
      rcases List.mem_append.mp hl' with hm | hm
      · exact (h3 l' hm trivial).le
      · rcases List.mem_cons.mp hm with rfl | hm
        · exact le_rfl
        · exact h4 l' hm trivial
    have k1 : printScore c msr l' * (1 - 5 / 10 ^ 10) ≤ printScore c msr l * (1 + 5 / 10 ^ 10) := by linarith
    nlinarith

/-- **C163.** Where one floor leads by more than one part in 10⁹, rounding does not change the answer: both answer that floor. -/
theorem C163_same {c : LevelCollector} {msr : List RadioData} (hs : UsualPrints c msr) (l : Level) (hl : l ∈ c.levels)
    (h0 : 0 < printScore c msr l)
    (hlead : ∀ l' ∈ c.levels, l' ≠ l → printScore c msr l' < printScore c msr l * (1 - 1 / 10 ^ 9)) :
    detectByRadiomapF R (getLevelsRadiomaps c) c msr = some l.id ∧
      detectByRadiomap false (getLevelsRadiomaps c) c msr = some l.id := by
  constructor
  · rcases C163_near R hs with ⟨-, h1⟩ | ⟨l1, m1, e1, -, b1⟩
    · exact absurd (h1 l hl) h0.ne'
    · by_cases he : l1 = l
      · rw [← he]; exact e1
      · have := hlead l1 m1 he
        have := b1 l hl
        linarith
  · obtain ⟨r, h2, h1⟩ := C28_level false c msr
    simp only [Bool.false_eq_true, if_false] at h1
    cases r with
    | none =>
      have := h1 l hl trivial
      unfold printScore at h0
      exact absurd this (by linarith)
    | some l1 =>
      obtain ⟨bef, aft, hlv, -, hb, h3, h4⟩ := h1
      by_cases he : l1 = l
      · rw [← he]; exact h2
      · have x := hlead l1 (by rw [hlv]; simp) he
        have : printScore c msr l ≤ printScore c msr l1 := by
          unfold printScore
          rw [hlv] at hl
          rcases List.mem_append.mp hl with hm | hm
          · exact (h3 l hm trivial).le
          · rcases List.mem_cons.mp hm with rfl | hm
            · exact le_rfl
            · exact h4 l hm trivial
        linarith

/-- The hypotheses of `C163_same` are met: two floors with a fingerprint of the transmitter each, of which the second is closer. -/
example (g : LevelGeometry) (gr : NavGraph.Graph Geo.XYPoint) :
    let rp : ℝ → ReferencePoint Geo.XYPoint := fun mean => ⟨"p", ⟨0, 0⟩, [("a", ⟨.BEACON, mean, 0, 1⟩)]⟩
    let l1 : Level := ⟨"L1", ⟨0, 0⟩, [], mkRadiomap [rp (-80)], g, gr⟩
    let l2 : Level := ⟨"L2", ⟨0, 0⟩, [], mkRadiomap [rp (-71)], g, gr⟩
    let msr : List RadioData := [⟨.BEACON, "a", -70, 0, 0, 0⟩]
    let c : LevelCollector := ⟨[l1, l2], []⟩
    detectByRadiomapF nearest (getLevelsRadiomaps c) c msr = some "L2" := by
  intro rp l1 l2 msr c
  have f1 : fingerprintsOf c "L1" = [⟨"a", "p", ⟨.BEACON, -80, 0, 1⟩⟩] := by
    simp [fingerprintsOf, c, l1, l2, levelRadiomap, mkRadiomap, rp]
  have f2 : fingerprintsOf c "L2" = [⟨"a", "p", ⟨.BEACON, -71, 0, 1⟩⟩] := by
    simp [fingerprintsOf, c, l1, l2, levelRadiomap, mkRadiomap, rp]
  have s1 : printScore c msr l1 = 10 / 101 := by
    unfold printScore
    rw [show l1.id = "L1" from rfl, f1]
    simp [levelScore, hits, closeness, msr]; norm_num
  have s2 : printScore c msr l2 = 10 / 11 := by
    unfold printScore
    rw [show l2.id = "L2" from rfl, f2]
    simp [levelScore, hits, closeness, msr]; norm_num
  have hs : UsualPrints c msr := by
    refine ⟨by simp [msr], ?_, ?_, ?_⟩
    · intro m hm
      simp [msr] at hm
      rw [hm]; norm_num
    · intro l hl
      simp [c] at hl
      rcases hl with rfl | rfl
      · rw [show l1.id = "L1" from rfl, f1]; simp
      · rw [show l2.id = "L2" from rfl, f2]; simp
    · intro l hl f hf
      simp [c] at hl
      rcases hl with rfl | rfl
      · rw [show l1.id = "L1" from rfl, f1] at hf
        simp at hf; rw [hf]; norm_num
      · rw [show l2.id = "L2" from rfl, f2] at hf
        simp at hf; rw [hf]; norm_num
  refine (C163_same nearest hs l2 (by simp [c]) (by rw [s2]; norm_num) ?_).1
  intro l' hl' hne
  simp [c] at hl'
  rcases hl' with rfl | rfl
  · rw [s1, s2]; norm_num
  · exact absurd rfl hne

end Verif.Fp
