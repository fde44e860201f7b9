import Verif.Fp.FloorModel
import Verif.Fp.FuseProps
import Verif.LevelEst.TransmittersProps

/-!
# C162: the floor by transmitters in floating point
-/

namespace Verif.Fp

open Verif Verif.Levels Verif.LevelEst
open Verif.Radio (mean)

variable (R : Rounding)

/-- Measurements and a building of usual size: at most ten thousand measurements, with levels and transmitter powers up to 1000. -/
structure UsualSignals (c : LevelCollector) (msr : List RadioData) : Prop where
  count : msr.length ≤ 10000
  rssi : ∀ m ∈ msr, |m.rssi| ≤ 1000
  power : ∀ l ∈ c.levels, ∀ m ∈ msr, |paramA l m.id| ≤ 1000

theorem total_near {α : Type*} (f : α → ℝ) (l : List α) (hl : ∀ x ∈ l, |f x| ≤ 1000) : ∀ (k : ℕ) (s s' : ℝ), k + l.length ≤ 10000 →
    |s| ≤ 1000 * k → |s' - s| ≤ k * (10000002 * u) →
    |l.foldl (fun s x => R.rnd (s + f x)) s' - l.foldl (fun s x => s + f x) s| ≤ (k + l.length : ℕ) * (10000002 * u) ∧
    |l.foldl (fun s x => s + f x) s| ≤ 1000 * (k + l.length : ℕ) := by
  have hu := u_pos
  have hut := u_tight
  induction l with
  | nil => intro k s s' _ h1 h2; exact ⟨by simpa using h2, by simpa using h1⟩
  | cons x l ih =>
    intro k s s' hk hs h
    have hx := hl x (by simp)
    rw [List.length_cons] at hk
    have hk' : (k : ℝ) ≤ 9999 := by exact_mod_cast (by omega : k ≤ 9999)
    have hku : (k : ℝ) * (10000002 * u) ≤ 9999 * (10000002 * u) := mul_le_mul_of_nonneg_right hk' (by positivity)
    obtain ⟨a1, a2⟩ := abs_le.mp h
    obtain ⟨s1, s2⟩ := abs_le.mp hs
    obtain ⟨x1, x2⟩ := abs_le.mp hx
    have h1 := near_by R (x := s' + f x) (B := 10000001) (by rw [abs_le]; constructor <;> linarith)
    obtain ⟨b1, b2⟩ := abs_le.mp h1
    obtain ⟨c1, c2⟩ := ih (fun y hy => hl y (by simp [hy])) (k + 1) (s + f x) (R.rnd (s' + f x)) (by omega)
      (by push_cast; rw [abs_le]; constructor <;> linarith) (by push_cast; rw [abs_le]; constructor <;> linarith)
    rw [List.foldl_cons, List.foldl_cons, List.length_cons, show k + (l.length + 1) = k + 1 + l.length by omega]
    exact ⟨c1, c2⟩

/-- A mean. -/
theorem average_near {α : Type*} (f : α → ℝ) (l : List α) (hne : l ≠ []) (hlen : l.length ≤ 10000) (hl : ∀ x ∈ l, |f x| ≤ 1000) :
    |R.rnd (l.foldl (fun s x => R.rnd (s + f x)) 0 ÷ (max l.length 1 : ℕ)) - mean (l.map f)| ≤ 10004000 * u ∧ |mean (l.map f)| ≤ 1000 := by
  have hu := u_pos
  have hut := u_tight
  obtain ⟨h1, h2⟩ := total_near R f l hl 0 0 0 (by omega) (by simp) (by simp)
  have hn : 0 < l.length := List.length_pos_of_ne_nil hne
  have e : mean (l.map f) = l.foldl (fun s x => s + f x) 0 / (l.length : ℝ) := by
    rw [foldl_sum_map, zero_add]; unfold mean; rw [List.length_map]
  rw [e, max_eq_left (by omega)]
  have hn' : (0 : ℝ) < l.length := by exact_mod_cast hn
  rw [divide_eq hn'.ne']
  rw [zero_add] at h1 h2
  generalize l.foldl (fun s x => R.rnd (s + f x)) 0 = S' at *
  generalize l.foldl (fun s x => s + f x) 0 = S at *
  generalize (l.length : ℝ) = n at *
  have m0 : |S / n| ≤ 1000 := by rw [abs_div, abs_of_pos hn', div_le_iff₀ hn']; exact h2
  have h4 : |S' / n - S / n| ≤ 10000002 * u := by
    rw [← sub_div, abs_div, abs_of_pos hn', div_le_iff₀ hn']
    linarith
  obtain ⟨a1, a2⟩ := abs_le.mp h4
  obtain ⟨m1, m2⟩ := abs_le.mp m0
  have h5 := near_by R (x := S' / n) (B := 1001) (by rw [abs_le]; constructor <;> linarith)
  obtain ⟨b1, b2⟩ := abs_le.mp h5
  exact ⟨by rw [abs_le]; constructor <;> linarith, m0⟩

theorem weight_near {n N : ℕ} (hn : 1 ≤ n) (hN : n ≤ N) :
    |levelWeightF R n N - (1 + n / (10 * N))| ≤ 2 * u ∧ 1 ≤ (1 + n / (10 * N) : ℝ) := by
  have hu := u_pos
  have hut := u_tight
  have n1 : (1 : ℝ) ≤ n := by exact_mod_cast hn
  have N1 : (n : ℝ) ≤ N := by exact_mod_cast hN
  have Np : (0 : ℝ) < N := by linarith
  unfold levelWeightF
  generalize (n : ℝ) = n at *
  generalize (N : ℝ) = N at *
  have h1 := near_by R (x := 1 / 10) (B := 1 / 10) (by norm_num [abs_of_pos])
  have h2 : |R.rnd (1 / 10) * n - 1 / 10 * n| ≤ (u * (1 / 10) + u / 200) * n := by
    rw [← sub_mul, abs_mul, abs_of_nonneg (by linarith : 0 ≤ n)]
    exact mul_le_mul_of_nonneg_right h1 (by linarith)
  obtain ⟨a1, a2⟩ := abs_le.mp h2
  have hun : u * n ≤ 1 / 1000 * n := mul_le_mul_of_nonneg_right (by linarith) (by linarith)
  have hun1 : u ≤ u * n := le_mul_of_one_le_right hu.le n1
  have h3 := near_by R (x := R.rnd (1 / 10) * n) (B := 11 / 100 * n) (by rw [abs_le]; constructor <;> linarith)
  obtain ⟨b1, b2⟩ := abs_le.mp h3
  set x := R.rnd (R.rnd (1 / 10) * n)
  rw [divide_eq Np.ne']
  have e : n / (10 * N) = 1 / 10 * n / N := by field_simp
  rw [e]
  have hr0 : 0 ≤ 1 / 10 * n / N := by positivity
  have hr1 : 1 / 10 * n / N ≤ 1 / 10 := by rw [div_le_iff₀ Np]; linarith
  have h4 : |x / N - 1 / 10 * n / N| ≤ 3 / 10 * u := by
    rw [← sub_div, abs_div, abs_of_pos Np, div_le_iff₀ Np]
    have : 3 / 10 * u * n ≤ 3 / 10 * u * N := mul_le_mul_of_nonneg_left N1 (by positivity)
    rw [abs_le]
    constructor <;> linarith
  obtain ⟨c1, c2⟩ := abs_le.mp h4
  have h5 := near_by R (x := x / N) (B := 11 / 100) (by rw [abs_le]; constructor <;> linarith)
  obtain ⟨d1, d2⟩ := abs_le.mp h5
  have h6 := near_by R (x := 1 + R.rnd (x / N)) (B := 12 / 10) (by rw [abs_le]; constructor <;> linarith)
  obtain ⟨e1, e2⟩ := abs_le.mp h6
  exact ⟨by rw [abs_le]; constructor <;> linarith, by linarith⟩

theorem foldlM_AF (l : Level) (msr : List RadioData) (a : ℝ) (h : ∀ m ∈ msr, l.containsTransmitter m.id = true) :
    msr.foldlM (fun a m => (l.transmitter m.id).map (fun t => R.rnd (a + t.pathloss.A))) a =
      some (msr.foldl (fun a m => R.rnd (a + paramA l m.id)) a) := by
  induction msr generalizing a with
  | nil => simp
  | cons m msr ih =>
    have hm := h m List.mem_cons_self
    unfold Level.containsTransmitter at hm
    obtain ⟨t, ht⟩ := Option.isSome_iff_exists.mp hm
    have : l.transmitter m.id = some t := ht
    rw [List.foldlM_cons, this]
    simp only [Option.map_some, Option.bind_eq_bind, Option.bind_some]
    rw [ih _ (fun k hk => h k (List.mem_cons_of_mem _ hk))]
    simp [paramA, ht]

/-- The rounded score of a floor that is heard is within 3·10⁻⁹ of the exact one. -/
theorem cost_near {c : LevelCollector} {msr : List RadioData} (hs : UsualSignals c msr) (useTx : Bool) (l : Level) (hl : l ∈ c.levels)
    (h : heardOn l msr ≠ []) : ∃ s, levelCostF R useTx msr (heardOn l msr) l = some s ∧ |s - score useTx msr l| ≤ 3 / 10 ^ 9 := by
  have hu := u_pos
  have hut := u_tight
  have hsub : ∀ m ∈ heardOn l msr, m ∈ msr := fun m hm => List.mem_of_mem_filter hm
  have hle : (heardOn l msr).length ≤ msr.length := List.length_filter_le _ _
  have hlen : (heardOn l msr).length ≤ 10000 := hle.trans hs.count
  obtain ⟨r1, r2⟩ := average_near R RadioData.rssi (heardOn l msr) h hlen (fun m hm => hs.rssi m (hsub m hm))
  obtain ⟨p1, p2⟩ := average_near R (fun m => paramA l m.id) (heardOn l msr) h hlen (fun m hm => hs.power l hl m (hsub m hm))
  obtain ⟨w1, w2⟩ := weight_near R (List.length_pos_of_ne_nil h) hle
  have hA : getAverageAF R l (heardOn l msr) =
      some (R.rnd ((heardOn l msr).foldl (fun a m => R.rnd (a + paramA l m.id)) 0 ÷ (max (heardOn l msr).length 1 : ℕ))) := by
    unfold getAverageAF
    rw [foldlM_AF R l _ 0 (by intro m hm; simpa [heardOn] using (List.mem_filter.mp hm).2)]
  have key : ∀ a' a : ℝ, |a' - a| ≤ 10004000 * u → |a| ≤ 1000 →
      |R.rnd (R.rnd (getAverageRssiF R (heardOn l msr) + a') ÷ levelWeightF R (heardOn l msr).length msr.length) -
        (mean ((heardOn l msr).map RadioData.rssi) + a) / (1 + (heardOn l msr).length / (10 * msr.length))| ≤ 3 / 10 ^ 9 := by
    intro a' a ha ha1
    unfold getAverageRssiF
    generalize R.rnd ((heardOn l msr).foldl (fun a m => R.rnd (a + m.rssi)) 0 ÷ (max (heardOn l msr).length 1 : ℕ)) = r' at *
    generalize mean ((heardOn l msr).map RadioData.rssi) = r at *
    generalize levelWeightF R (heardOn l msr).length msr.length = w' at *
    generalize (1 + ((heardOn l msr).length : ℝ) / (10 * (msr.length : ℝ))) = w at *
    obtain ⟨a1, a2⟩ := abs_le.mp ha
    obtain ⟨a3, a4⟩ := abs_le.mp ha1
    obtain ⟨b1, b2⟩ := abs_le.mp r1
    obtain ⟨b3, b4⟩ := abs_le.mp r2
    obtain ⟨c1, c2⟩ := abs_le.mp w1
    have h1 := near_by R (x := r' + a') (B := 2001) (by rw [abs_le]; constructor <;> linarith)
    obtain ⟨d1, d2⟩ := abs_le.mp h1
    set C := R.rnd (r' + a')
    have hC : |C - (r + a)| ≤ 20011000 * u := by rw [abs_le]; constructor <;> linarith
    have w0 : 999 / 1000 ≤ w' := by linarith
    have wp : 0 < w' := by linarith
    have wp' : 0 < w := by linarith
    rw [divide_eq wp.ne']
    have hq1 : |(r + a) / w| ≤ 2000 := by
      rw [abs_div, abs_of_pos wp', div_le_iff₀ wp']
      have : |r + a| ≤ 2000 := by rw [abs_le]; constructor <;> linarith
      linarith
    have hq : |C / w' - (r + a) / w| ≤ 20040000 * u := by
      have e : C / w' - (r + a) / w = ((C - (r + a)) - (r + a) / w * (w' - w)) / w' := by
        field_simp
        ring
      rw [e, abs_div, abs_of_pos wp, div_le_iff₀ wp]
      have y := abs_sub (C - (r + a)) ((r + a) / w * (w' - w))
      have y2 : |(r + a) / w * (w' - w)| ≤ 2000 * (2 * u) := by
        rw [abs_mul]
        exact mul_le_mul hq1 w1 (abs_nonneg _) (by norm_num)
      have y3 : 20040000 * u * (999 / 1000) ≤ 20040000 * u * w' := mul_le_mul_of_nonneg_left w0 (by positivity)
      linarith
    obtain ⟨f1, f2⟩ := abs_le.mp hq
    obtain ⟨g1, g2⟩ := abs_le.mp hq1
    have h2 := near_by R (x := C / w') (B := 2001) (by rw [abs_le]; constructor <;> linarith)
    obtain ⟨i1, i2⟩ := abs_le.mp h2
    rw [abs_le]
    constructor <;> linarith
  unfold levelCostF score
  cases useTx
  · refine ⟨_, rfl, ?_⟩
    simp only [Bool.false_eq_true, if_false]
    exact key 0 0 (by simp; positivity) (by simp)
  · dsimp only
    rw [if_pos rfl, hA, if_pos rfl]
    exact ⟨_, rfl, key _ _ p1 p2⟩

open Classical in
/-- The rounded score. -/
noncomputable def scoreF (useTx : Bool) (msr : List RadioData) (l : Level) : ℝ := (levelCostF R useTx msr (heardOn l msr) l).getD 0

theorem detectF_first {c : LevelCollector} {msr : List RadioData} (hs : UsualSignals c msr) (useTx : Bool) :
    ∃ r, FirstMax (fun l => heardOn l msr ≠ []) (scoreF R useTx msr) (-1000) c.levels r ∧
      detectByTransmittersF R useTx c msr = some (match r with | some l => l.id | none => "") := by
  obtain ⟨r, hr, hf⟩ := firstMax_fold (fun l => heardOn l msr ≠ []) (scoreF R useTx msr) Level.id (-1000) "" c.levels
  refine ⟨r, hr, ?_⟩
  have hstep : ∀ (b : ℝ × String) (l : Level), l ∈ c.levels → detectStepF R useTx msr b l = some
      (if heardOn l msr ≠ [] then (if scoreF R useTx msr l > b.1 then (scoreF R useTx msr l, l.id) else b) else b) := by
    intro b l hl
    unfold detectStepF
    have : getLevelRadioMeasurements RadioData.id l msr = heardOn l msr := rfl
    rw [this]
    dsimp only
    by_cases h : heardOn l msr = []
    · simp [h]
    · obtain ⟨s, hs1, -⟩ := cost_near R hs useTx l hl h
      unfold scoreF
      rw [hs1]
      simp [h]
  have hfold : ∀ (ls : List Level) (b : ℝ × String), (∀ l ∈ ls, l ∈ c.levels) → ls.foldlM (detectStepF R useTx msr) b = some
      (ls.foldl (fun b l => if heardOn l msr ≠ [] then (if scoreF R useTx msr l > b.1 then (scoreF R useTx msr l, l.id) else b) else b) b) := by
    intro ls
    induction ls with
    | nil => intro b _; rfl
    | cons l ls ih =>
      intro b h
      rw [List.foldlM_cons, hstep b l (h l (by simp))]
      exact ih _ (fun k hk => h k (by simp [hk]))
  unfold detectByTransmittersF
  rw [hfold _ _ (fun _ h => h), hf]
  cases r <;> rfl

theorem scoreF_near {c : LevelCollector} {msr : List RadioData} (hs : UsualSignals c msr) (useTx : Bool) (l : Level) (hl : l ∈ c.levels)
    (h : heardOn l msr ≠ []) : |scoreF R useTx msr l - score useTx msr l| ≤ 3 / 10 ^ 9 := by
  obtain ⟨s, h1, h2⟩ := cost_near R hs useTx l hl h
  unfold scoreF
  rw [h1]
  exact h2

/-- **C162.** With rounding the detection does not throw, and it answers a floor that is heard with a score at most 10⁻⁸ below the best, or the
empty id when no floor that is heard scores more than 10⁻⁸ above −1000. -/
theorem C162_near {c : LevelCollector} {msr : List RadioData} (hs : UsualSignals c msr) (useTx : Bool) :
    (detectByTransmittersF R useTx c msr = some "" ∧ ∀ l ∈ c.levels, heardOn l msr ≠ [] → score useTx msr l ≤ -1000 + 1 / 10 ^ 8) ∨
    ∃ l ∈ c.levels, heardOn l msr ≠ [] ∧ detectByTransmittersF R useTx c msr = some l.id ∧ -1000 - 1 / 10 ^ 8 < score useTx msr l ∧
      ∀ l' ∈ c.levels, heardOn l' msr ≠ [] → score useTx msr l' ≤ score useTx msr l + 1 / 10 ^ 8 := by
  obtain ⟨r, h1, h2⟩ := detectF_first R hs useTx
  cases r with
  | none =>
    left
    refine ⟨h2, fun l hl h => ?_⟩
    have := h1 l hl h
    have := (abs_le.mp (scoreF_near R hs useTx l hl h)).1
    linarith
  | some l =>
    right
    obtain ⟨bef, aft, hlv, hok, hb, h3, h4⟩ := h1
    have hl : l ∈ c.levels := by rw [hlv]; simp
    obtain ⟨x1, x2⟩ := abs_le.mp (scoreF_near R hs useTx l hl hok)
    refine ⟨l, hl, hok, h2, by linarith, fun l' hl' h' => ?_⟩
    obtain ⟨y1, y2⟩ := abs_le.mp (scoreF_near R hs useTx l' hl' h')
    have : scoreF R useTx msr l' ≤ scoreF R useTx msr l := by
      rw [hlv] at hl'
      rcases List.mem_append.mp hl' with hm | hm
      · exact (h3 l' hm h').le
      · rcases List.mem_cons.mp hm with rfl | hm
        · exact le_rfl
        · exact h4 l' hm h'
    linarith

/-- **C162.** Where one floor leads by more than 10⁻⁸, rounding does not change the answer: both answer that floor. -/
theorem C162_same {c : LevelCollector} {msr : List RadioData} (hs : UsualSignals c msr) (useTx : Bool) (l : Level) (hl : l ∈ c.levels)
    (h : heardOn l msr ≠ []) (h0 : -1000 + 1 / 10 ^ 8 < score useTx msr l)
    (hlead : ∀ l' ∈ c.levels, heardOn l' msr ≠ [] → l' ≠ l → score useTx msr l' + 1 / 10 ^ 8 < score useTx msr l) :
    detectByTransmittersF R useTx c msr = some l.id ∧ detectByTransmitters useTx c msr = some l.id := by
  constructor
  · rcases C162_near R hs useTx with ⟨-, h1⟩ | ⟨l1, m1, k1, e1, -, b1⟩
    · exact absurd (h1 l hl h) (by linarith)
    · by_cases he : l1 = l
      · rw [← he]; exact e1
      · have := hlead l1 m1 k1 he
        have := b1 l hl h
        linarith
  · obtain ⟨r, h1, h2⟩ := C27_detected useTx c.levels msr c rfl
    cases r with
    | none =>
      have := h1 l hl h
      exact absurd this (by linarith)
    | some l1 =>
      obtain ⟨bef, aft, hlv, hok, hb, h3, h4⟩ := h1
      by_cases he : l1 = l
      · rw [← he]; exact h2
      · have x := hlead l1 (by rw [hlv]; simp) hok he
        have : score useTx msr l ≤ score useTx msr l1 := by
          rw [hlv] at hl
          rcases List.mem_append.mp hl with hm | hm
          · exact (h3 l hm h).le
          · rcases List.mem_cons.mp hm with rfl | hm
            · exact le_rfl
            · exact h4 l hm h
        linarith

/-- The hypotheses of `C162_same` are met: two floors with a transmitter each, of which the second is louder. -/
example (g : LevelGeometry) (gr : NavGraph.Graph Geo.XYPoint) :
    let tx : String → Transmitter XYZPoint := fun id => ⟨id, ⟨0, 0, 0⟩, ⟨0, 0, 0⟩, .BEACON⟩
    let l1 : Level := ⟨"L1", ⟨0, 0⟩, [("a", tx "a")], ⟨[], []⟩, g, gr⟩
    let l2 : Level := ⟨"L2", ⟨0, 0⟩, [("b", tx "b")], ⟨[], []⟩, g, gr⟩
    let msr : List RadioData := [⟨.BEACON, "a", -80, 0, 0, 0⟩, ⟨.BEACON, "b", -70, 0, 0, 0⟩]
    detectByTransmittersF nearest false ⟨[l1, l2], []⟩ msr = some "L2" := by
  intro tx l1 l2 msr
  have e1 : heardOn l1 msr = [⟨.BEACON, "a", -80, 0, 0, 0⟩] := by
    simp [heardOn, l1, msr, Level.containsTransmitter, StdMap.find?, tx]
  have e2 : heardOn l2 msr = [⟨.BEACON, "b", -70, 0, 0, 0⟩] := by
    simp [heardOn, l2, msr, Level.containsTransmitter, StdMap.find?, tx]
  have s1 : score false msr l1 = -80 / (1 + 1 / 20) := by
    simp [score, e1, mean, msr]; norm_num
  have s2 : score false msr l2 = -70 / (1 + 1 / 20) := by
    simp [score, e2, mean, msr]; norm_num
  have hs : UsualSignals ⟨[l1, l2], []⟩ msr := by
    refine ⟨by simp [msr], ?_, ?_⟩
    · intro m hm
      simp [msr] at hm
      rcases hm with rfl | rfl <;> norm_num
    · intro l hl m hm
      simp at hl
      simp [msr] at hm
      rcases hl with rfl | rfl <;> rcases hm with rfl | rfl <;> simp [paramA, StdMap.find?, l1, l2, tx]
  refine (C162_same nearest hs false l2 (by simp) (by rw [e2]; simp) (by rw [s2]; norm_num) ?_).1
  intro l' hl' _ hne
  simp at hl'
  rcases hl' with rfl | rfl
  · rw [s1, s2]; norm_num
  · exact absurd rfl hne

end Verif.Fp
