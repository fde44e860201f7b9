import Verif.Fp.FuseModel
import Verif.Fp.KnnLemmas
import Verif.Fp.CmProps
import Verif.Fp.CmExample
import Mathlib.Analysis.Complex.Norm

/-!
# C160: the fusion of indoor and outdoor positions in floating point
-/

namespace Verif.Fp

open Verif Verif.Post

variable (R : Rounding)

theorem near_by {x B : ℝ} (h : |x| ≤ B) : |R.rnd x - x| ≤ u * B + u / 200 := by
  have h1 := R.near x
  have h2 := tiny_share
  have h3 := mul_le_mul_of_nonneg_left h u_pos.le
  linarith

theorem rnd_nat {n : ℤ} (h : 0 ≤ n) : |R.rnd (n : ℝ) - n| ≤ 1.01 * (u * n) := by
  have hu := u_pos
  rcases h.eq_or_lt with h0 | h0
  · rw [← h0]; push_cast; rw [R.zero]; simp
  · have h1 : (1 : ℝ) ≤ n := by exact_mod_cast h0
    have h2 := near_by R (x := (n : ℝ)) (B := n) (by rw [abs_of_nonneg (by linarith)])
    have h3 := mul_le_mul_of_nonneg_left h1 hu.le
    linarith

/-- The way of `n` milliseconds. -/
theorem way_near {v : ℝ} {n : ℤ} (hv : 0 ≤ v) (hn : 0 ≤ n) :
    |R.rnd (R.rnd (v * R.rnd (n : ℝ)) / 1000) - v * n / 1000| ≤ 3.1 * (u * (v * n / 1000)) + u / 50 := by
  have hu := u_pos
  have hus := u_small
  have hn' : (0 : ℝ) ≤ n := by exact_mod_cast hn
  set t := v * n / 1000 with ht
  have ht0 : 0 ≤ t := by positivity
  have h1 : |v * R.rnd (n : ℝ) - 1000 * t| ≤ 1010 * (u * t) := by
    have : v * R.rnd (n : ℝ) - 1000 * t = v * (R.rnd (n : ℝ) - n) := by rw [ht]; ring
    rw [this, abs_mul, abs_of_nonneg hv]
    have := mul_le_mul_of_nonneg_left (rnd_nat R hn) hv
    refine this.trans (le_of_eq ?_)
    rw [ht]; ring
  obtain ⟨a1, a2⟩ := abs_le.mp h1
  have hut : u * t ≤ t / 10 ^ 15 := by
    have := mul_le_mul_of_nonneg_right hus ht0
    linarith
  have hut0 : 0 ≤ u * t := by positivity
  have h2 := near_by R (x := v * R.rnd (n : ℝ)) (B := 1000.1 * t) (by rw [abs_le]; constructor <;> linarith)
  obtain ⟨b1, b2⟩ := abs_le.mp h2
  have h3 := near_by R (x := R.rnd (v * R.rnd (n : ℝ)) / 1000) (B := 1.001 * t + u / 200) (by rw [abs_le]; constructor <;> linarith)
  obtain ⟨c1, c2⟩ := abs_le.mp h3
  have huu : u * (u / 200) ≤ u / 200 := by
    have : u * (u / 200) ≤ 1 * (u / 200) := mul_le_mul_of_nonneg_right (by linarith) (by positivity)
    linarith
  rw [abs_le]
  constructor <;> linarith

/-- One update of a stored deviation: the error stays below `20 u S`. -/
theorem dev_step {d d' p m v S : ℝ} {n : ℤ} (hS : 1 ≤ S) (hd0 : 0 ≤ d) (hd : d ≤ S) (hp0 : 0 ≤ p) (hp : p ≤ S) (hm0 : 0 ≤ m) (hm : m ≤ S)
    (hv : 0 ≤ v) (hn : 0 ≤ n) (he : |d' - d| ≤ 20 * (u * S)) :
    |R.rnd (R.rnd (min p (R.rnd (d' + R.rnd (R.rnd (v * R.rnd (n : ℝ)) / 1000))) + m) / 2) - (min p (d + v * n / 1000) + m) / 2| ≤
      20 * (u * S) := by
  have hu := u_pos
  have hus := u_small
  have hn' : (0 : ℝ) ≤ n := by exact_mod_cast hn
  have hw := way_near R hv hn
  set t := v * n / 1000 with ht
  have ht0 : 0 ≤ t := by positivity
  generalize R.rnd (R.rnd (v * R.rnd (n : ℝ)) / 1000) = t' at hw
  obtain ⟨e1, e2⟩ := abs_le.mp he
  obtain ⟨w1, w2⟩ := abs_le.mp hw
  have hut : u * t ≤ t / 10 ^ 15 := by
    have := mul_le_mul_of_nonneg_right hus ht0
    linarith
  have hut0 : 0 ≤ u * t := by positivity
  have huS : u * S ≤ S / 10 ^ 15 := by
    have := mul_le_mul_of_nonneg_right hus (show 0 ≤ S by linarith)
    linarith
  have huS1 : u ≤ u * S := le_mul_of_one_le_right hu.le hS
  have h1 := near_by R (x := d' + t') (B := 1.001 * S + 1.001 * t) (by rw [abs_le]; constructor <;> linarith)
  obtain ⟨b1, b2⟩ := abs_le.mp h1
  have hmin : |min p (R.rnd (d' + t')) - min p (d + t)| ≤ 29.5 * (u * S) := by
    by_cases hc : t ≤ 2 * S
    · have hut2 : u * t ≤ 2 * (u * S) := by
        have := mul_le_mul_of_nonneg_left hc hu.le
        linarith
      have h3 := abs_min_sub_min_le_max p (R.rnd (d' + t')) p (d + t)
      rw [sub_self, abs_zero, max_eq_right (abs_nonneg _)] at h3
      have h4 : |R.rnd (d' + t') - (d + t)| ≤ 29.5 * (u * S) := by rw [abs_le]; constructor <;> linarith
      exact h3.trans h4
    · push Not at hc
      rw [min_eq_left (by linarith), min_eq_left (by linarith), sub_self, abs_zero]
      positivity
  have hq0 : 0 ≤ min p (d + t) := le_min hp0 (by linarith)
  have hq1 : min p (d + t) ≤ S := (min_le_left _ _).trans hp
  generalize min p (R.rnd (d' + t')) = q' at *
  generalize min p (d + t) = q at *
  obtain ⟨f1, f2⟩ := abs_le.mp hmin
  have h5 := near_by R (x := q' + m) (B := 2.001 * S) (by rw [abs_le]; constructor <;> linarith)
  obtain ⟨g1, g2⟩ := abs_le.mp h5
  have h6 := near_by R (x := R.rnd (q' + m) / 2) (B := 1.002 * S) (by rw [abs_le]; constructor <;> linarith)
  obtain ⟨k1, k2⟩ := abs_le.mp h6
  rw [abs_le]
  constructor <;> linarith

theorem rnd_nonneg {x : ℝ} (h : 0 ≤ x) : 0 ≤ R.rnd x := by
  have := R.mono h
  rwa [R.zero] at this

/-- One update of the deviation of a source. -/
theorem source_step {cs : CommonSettings} {S : ℝ} (hS : 1 ≤ S) (hp0 : 0 ≤ cs.priorDeviation) (hp : cs.priorDeviation ≤ S)
    (hv : 0 ≤ cs.averageMovSpeed) (stored given : Position) (hst : stored.isEmpty = true ∨ stored.ts ≤ given.ts)
    (hm0 : 0 ≤ given.deviationM) (hm : given.deviationM ≤ S) {d d' : ℝ} (hd0 : 0 ≤ d) (hd : d ≤ S) (hd' : 0 ≤ d') (he : |d' - d| ≤ 20 * (u * S)) :
    0 ≤ (priorDev cs stored given d + given.deviationM) / 2 ∧ (priorDev cs stored given d + given.deviationM) / 2 ≤ S ∧
    0 ≤ R.rnd (R.rnd (priorDevF R cs stored given d' + given.deviationM) / 2) ∧
    |R.rnd (R.rnd (priorDevF R cs stored given d' + given.deviationM) / 2) - (priorDev cs stored given d + given.deviationM) / 2| ≤
      20 * (u * S) := by
  have hu := u_pos
  have hus := u_small
  have huS : u * S ≤ S / 10 ^ 15 := by
    have := mul_le_mul_of_nonneg_right hus (show 0 ≤ S by linarith)
    linarith
  have huS1 : u ≤ u * S := le_mul_of_one_le_right hu.le hS
  unfold priorDev priorDevF
  by_cases h : stored.isEmpty = true
  · rw [if_pos h, if_pos h]
    have h5 := near_by R (x := cs.priorDeviation + given.deviationM) (B := 2 * S) (by rw [abs_le]; constructor <;> linarith)
    obtain ⟨g1, g2⟩ := abs_le.mp h5
    have h6 := near_by R (x := R.rnd (cs.priorDeviation + given.deviationM) / 2) (B := 1.002 * S) (by rw [abs_le]; constructor <;> linarith)
    obtain ⟨k1, k2⟩ := abs_le.mp h6
    refine ⟨by linarith, by linarith, rnd_nonneg R (div_nonneg (rnd_nonneg R (by linarith)) (by norm_num)), ?_⟩
    rw [abs_le]
    constructor <;> linarith
  · rw [if_neg h, if_neg h]
    have hn : 0 ≤ given.ts - stored.ts := by
      rcases hst with h' | h'
      · exact absurd h' h
      · omega
    have hn' : (0 : ℝ) ≤ ((given.ts - stored.ts : Int) : ℝ) := by exact_mod_cast hn
    have h0 : 0 ≤ d + cs.averageMovSpeed * ((given.ts - stored.ts : Int) : ℝ) / 1000 := by positivity
    have hmin0 := le_min hp0 h0
    have hmin1 := (min_le_left cs.priorDeviation (d + cs.averageMovSpeed * ((given.ts - stored.ts : Int) : ℝ) / 1000)).trans hp
    refine ⟨by linarith, by linarith, ?_, dev_step R hS hd0 hd hp0 hp hm0 hm hv hn he⟩
    have : 0 ≤ R.rnd (d' + R.rnd (R.rnd (cs.averageMovSpeed * R.rnd ((given.ts - stored.ts : Int) : ℝ)) / 1000)) := by
      have h1 := rnd_nonneg R hn'
      have h2 := rnd_nonneg R (mul_nonneg hv h1)
      have h3 := rnd_nonneg R (div_nonneg h2 (by norm_num : (0 : ℝ) ≤ 1000))
      exact rnd_nonneg R (by linarith)
    have h4 := rnd_nonneg R (add_nonneg (le_min hp0 this) hm0)
    exact rnd_nonneg R (div_nonneg h4 (by norm_num))

/-- A call of `fusePositions`. -/
structure FuseCall where
  curTs : Int
  indoor : Position
  outdoor : Position
  status : NavigationStatus

/-- The fusion after a history of calls, exact. The other functions of the post-processor do not change what is read here. -/
noncomputable def fuseRun (cs : CommonSettings) (calls : List FuseCall) : PostState :=
  calls.foldl (fun s c => (fusePositions cs s c.curTs c.indoor c.outdoor c.status).2) (postInit cs)

/-- The fusion after a history of calls, with rounding. -/
noncomputable def fuseRunF (cs : CommonSettings) (calls : List FuseCall) : PostState :=
  calls.foldl (fun s c => (fusePositionsF R cs s c.curTs c.indoor c.outdoor c.status).2) (postInit cs)

/-- The positions of one source. -/
def fixes (get : FuseCall → Position) (calls : List FuseCall) : List Position := (calls.map get).filter (fun p => !p.isEmpty)

/-- A source whose positions come in the order of their times, with accuracies up to `S`. -/
structure Orderly (S : ℝ) (l : List Position) : Prop where
  order : l.Pairwise (fun p q => p.ts ≤ q.ts)
  acc : ∀ p ∈ l, 0 ≤ p.deviationM ∧ p.deviationM ≤ S

/-- Settings of the fusion with figures up to `S`. -/
structure Usual (cs : CommonSettings) (S : ℝ) : Prop where
  one : 1 ≤ S
  prior0 : 0 ≤ cs.priorDeviation
  prior : cs.priorDeviation ≤ S
  speed : 0 ≤ cs.averageMovSpeed

/-- The rounded state is near the exact one. -/
structure CloseStore (S : ℝ) (s' s : PostState) : Prop where
  indoorPos : s'.indoorPos = s.indoorPos
  outdoorPos : s'.outdoorPos = s.outdoorPos
  in0 : 0 ≤ s.indoorDev
  in1 : s.indoorDev ≤ S
  in2 : 0 ≤ s'.indoorDev
  in3 : |s'.indoorDev - s.indoorDev| ≤ 20 * (u * S)
  out0 : 0 ≤ s.outdoorDev
  out1 : s.outdoorDev ≤ S
  out2 : 0 ≤ s'.outdoorDev
  out3 : |s'.outdoorDev - s.outdoorDev| ≤ 20 * (u * S)

theorem fixes_append (get : FuseCall → Position) (calls : List FuseCall) (c : FuseCall) :
    fixes get (calls ++ [c]) = if (get c).isEmpty then fixes get calls else fixes get calls ++ [get c] := by
  unfold fixes
  rw [List.map_append, List.filter_append]
  by_cases h : (get c).isEmpty = true <;> simp [h]

theorem close_fill {cs : CommonSettings} {S : ℝ} (hcs : Usual cs S) {s' s : PostState} (h : CloseStore S s' s) (i o : Position)
    (hi : i.isEmpty = false → (s.indoorPos.isEmpty = true ∨ s.indoorPos.ts ≤ i.ts) ∧ 0 ≤ i.deviationM ∧ i.deviationM ≤ S)
    (ho : o.isEmpty = false → (s.outdoorPos.isEmpty = true ∨ s.outdoorPos.ts ≤ o.ts) ∧ 0 ≤ o.deviationM ∧ o.deviationM ≤ S) :
    CloseStore S (fillOutdoorF R cs (fillIndoorF R cs s' i) o) (fillOutdoor cs (fillIndoor cs s i) o) := by
  have h1 : CloseStore S (fillIndoorF R cs s' i) (fillIndoor cs s i) := by
    unfold fillIndoorF fillIndoor
    by_cases he : i.isEmpty = true
    · rw [if_pos he, if_pos he]; exact h
    · rw [if_neg he, if_neg he]
      obtain ⟨a, b, c⟩ := hi (by simpa using he)
      obtain ⟨q0, q1, q2, q3⟩ := source_step R hcs.one hcs.prior0 hcs.prior hcs.speed s.indoorPos i a b c h.in0 h.in1 h.in2 h.in3
      rw [h.indoorPos]
      exact ⟨rfl, h.outdoorPos, q0, q1, q2, q3, h.out0, h.out1, h.out2, h.out3⟩
  have hpos : (fillIndoor cs s i).outdoorPos = s.outdoorPos := by
    unfold fillIndoor; split_ifs <;> rfl
  unfold fillOutdoorF fillOutdoor
  by_cases he : o.isEmpty = true
  · rw [if_pos he, if_pos he]; exact h1
  · rw [if_neg he, if_neg he]
    obtain ⟨a, b, c⟩ := ho (by simpa using he)
    rw [← hpos] at a
    obtain ⟨q0, q1, q2, q3⟩ := source_step R hcs.one hcs.prior0 hcs.prior hcs.speed _ o a b c h1.out0 h1.out1 h1.out2 h1.out3
    rw [h1.outdoorPos]
    exact ⟨h1.indoorPos, rfl, h1.in0, h1.in1, h1.in2, h1.in3, q0, q1, q2, q3⟩

theorem fill_stored (cs : CommonSettings) (s : PostState) (i o : Position) :
    (fillOutdoor cs (fillIndoor cs s i) o).indoorPos = (if i.isEmpty then s.indoorPos else i) ∧
    (fillOutdoor cs (fillIndoor cs s i) o).outdoorPos = (if o.isEmpty then s.outdoorPos else o) := by
  unfold fillOutdoor fillIndoor
  constructor <;> split_ifs <;> rfl

theorem run_close {cs : CommonSettings} {S : ℝ} (hcs : Usual cs S) (calls : List FuseCall)
    (hi : Orderly S (fixes (·.indoor) calls)) (ho : Orderly S (fixes (·.outdoor) calls)) :
    CloseStore S (fuseRunF R cs calls) (fuseRun cs calls) ∧
    ((fuseRun cs calls).indoorPos.isEmpty = true ∨ (fuseRun cs calls).indoorPos ∈ fixes (·.indoor) calls) ∧
    ((fuseRun cs calls).outdoorPos.isEmpty = true ∨ (fuseRun cs calls).outdoorPos ∈ fixes (·.outdoor) calls) := by
  induction calls using List.reverseRecOn with
  | nil =>
    have hu := u_pos
    have := hcs.one
    have h20 : |cs.priorDeviation - cs.priorDeviation| ≤ 20 * (u * S) := by rw [sub_self, abs_zero]; positivity
    exact ⟨⟨rfl, rfl, hcs.prior0, hcs.prior, hcs.prior0, h20, hcs.prior0, hcs.prior, hcs.prior0, h20⟩, .inl rfl, .inl rfl⟩
  | append_singleton calls c ih =>
    have sub : ∀ get : FuseCall → Position, Orderly S (fixes get (calls ++ [c])) → Orderly S (fixes get calls) := by
      intro get h
      rw [fixes_append] at h
      split_ifs at h
      · exact h
      · exact ⟨(List.pairwise_append.mp h.order).1, fun p hp => h.acc p (List.mem_append_left _ hp)⟩
    obtain ⟨hc, m1, m2⟩ := ih (sub _ hi) (sub _ ho)
    have e : fuseRun cs (calls ++ [c]) = fillOutdoor cs (fillIndoor cs (fuseRun cs calls) c.indoor) c.outdoor := by
      simp [fuseRun, fusePositions]
    have eF : fuseRunF R cs (calls ++ [c]) = fillOutdoorF R cs (fillIndoorF R cs (fuseRunF R cs calls) c.indoor) c.outdoor := by
      simp [fuseRunF, fusePositionsF]
    have later : ∀ (get : FuseCall → Position) (st : Position), Orderly S (fixes get (calls ++ [c])) →
        (st.isEmpty = true ∨ st ∈ fixes get calls) → (get c).isEmpty = false →
        (st.isEmpty = true ∨ st.ts ≤ (get c).ts) ∧ 0 ≤ (get c).deviationM ∧ (get c).deviationM ≤ S := by
      intro get st h hm hne
      rw [fixes_append, if_neg (by rw [hne]; simp)] at h
      refine ⟨hm.imp id (fun hm => (List.pairwise_append.mp h.order).2.2 st hm _ (by simp)), h.acc _ (by simp)⟩
    rw [e, eF]
    refine ⟨close_fill R hcs hc _ _ (later (·.indoor) _ hi m1) (later (·.outdoor) _ ho m2), ?_, ?_⟩
    · rw [(fill_stored _ _ _ _).1, fixes_append]
      by_cases h : c.indoor.isEmpty = true
      · rw [if_pos h, if_pos h]; exact m1
      · rw [if_neg h, if_neg h]; exact .inr (by simp)
    · rw [(fill_stored _ _ _ _).2, fixes_append]
      by_cases h : c.outdoor.isEmpty = true
      · rw [if_pos h, if_pos h]; exact m2
      · rw [if_neg h, if_neg h]; exact .inr (by simp)

/-- **C160.** Rounding errors of the stored deviations do not add up: after every history of calls with positions in the order of their times
the stored positions are the exact ones and the stored deviations are within 3·10⁻¹⁵ of the greatest deviation of the exact ones. -/
theorem C160_stored {cs : CommonSettings} {S : ℝ} (hcs : Usual cs S) (calls : List FuseCall)
    (hi : Orderly S (fixes (·.indoor) calls)) (ho : Orderly S (fixes (·.outdoor) calls)) :
    (fuseRunF R cs calls).indoorPos = (fuseRun cs calls).indoorPos ∧ (fuseRunF R cs calls).outdoorPos = (fuseRun cs calls).outdoorPos ∧
    |(fuseRunF R cs calls).indoorDev - (fuseRun cs calls).indoorDev| ≤ 3 / 10 ^ 15 * S ∧
    |(fuseRunF R cs calls).outdoorDev - (fuseRun cs calls).outdoorDev| ≤ 3 / 10 ^ 15 * S := by
  obtain ⟨h, -, -⟩ := run_close R hcs calls hi ho
  have huS : u * S ≤ 12 / 10 ^ 17 * S := mul_le_mul_of_nonneg_right u_tight (by linarith [hcs.one])
  have := hcs.one
  exact ⟨h.indoorPos, h.outdoorPos, h.in3.trans (by linarith), h.out3.trans (by linarith)⟩

/-! ## The choice and the mean -/

theorem sqrt_near {X Y α β : ℝ} (hX : 0 ≤ X) (hY : 0 ≤ Y) (hα : 0 ≤ α) (hβ : 0 ≤ β) (hβ1 : β ≤ 1) (h : |X - Y| ≤ β * Y + α ^ 2) :
    |Real.sqrt X - Real.sqrt Y| ≤ β * Real.sqrt Y + α := by
  obtain ⟨h1, h2⟩ := abs_le.mp h
  have sx := Real.sqrt_nonneg X
  have sy := Real.sqrt_nonneg Y
  have ex := Real.sq_sqrt hX
  have ey := Real.sq_sqrt hY
  have up : Real.sqrt X ≤ Real.sqrt Y * (1 + β) + α := by
    rw [Real.sqrt_le_left (by positivity)]
    have e : (Real.sqrt Y * (1 + β) + α) ^ 2 =
        Real.sqrt Y ^ 2 + 2 * β * Real.sqrt Y ^ 2 + β ^ 2 * Real.sqrt Y ^ 2 + 2 * (Real.sqrt Y * (1 + β)) * α + α ^ 2 := by ring
    rw [e, ey]
    have : 0 ≤ β ^ 2 * Y + 2 * (Real.sqrt Y * (1 + β)) * α := by positivity
    have : 0 ≤ β * Y := by positivity
    linarith
  have dn : Real.sqrt Y * (1 - β) ≤ Real.sqrt X + α := by
    apply le_of_sq_le_sq _ (by positivity)
    have e : (Real.sqrt X + α) ^ 2 = Real.sqrt X ^ 2 + 2 * Real.sqrt X * α + α ^ 2 := by ring
    have e' : (Real.sqrt Y * (1 - β)) ^ 2 = Real.sqrt Y ^ 2 * ((1 - β) * (1 - β)) := by ring
    rw [e, e', ex, ey]
    have h3 : Y * ((1 - β) * (1 - β)) ≤ Y * (1 - β) := by
      apply mul_le_mul_of_nonneg_left _ hY
      exact mul_le_of_le_one_left (by linarith) (by linarith)
    have : 0 ≤ 2 * Real.sqrt X * α := by positivity
    linarith
  rw [abs_le]
  constructor <;> linarith

theorem norm_move (a b c d : ℝ) : |Real.sqrt (a * a + b * b) - Real.sqrt (c * c + d * d)| ≤ |a - c| + |b - d| := by
  have h := abs_norm_sub_norm_le (⟨a, b⟩ : ℂ) ⟨c, d⟩
  have n : ∀ x y : ℝ, ‖(⟨x, y⟩ : ℂ)‖ = Real.sqrt (x * x + y * y) := by
    intro x y
    rw [Complex.norm_def, Complex.normSq_mk]
  rw [n, n] at h
  have e : (⟨a, b⟩ : ℂ) - ⟨c, d⟩ = ⟨a - c, b - d⟩ := rfl
  rw [e] at h
  refine h.trans ?_
  have := Complex.norm_le_abs_re_add_abs_im (⟨a - c, b - d⟩ : ℂ)
  exact this

/-- The distance of two points with coordinates up to `M`. -/
theorem dist_near {ax ay bx by' M : ℝ} (hM : 1 ≤ M) (h1 : |ax| ≤ M) (h2 : |ay| ≤ M) (h3 : |bx| ≤ M) (h4 : |by'| ≤ M) :
    |getDistF R ax ay bx by' - Geometry.getDist ax ay bx by'| ≤ 21 * (u * M) := by
  have hu := u_pos
  have hus := u_small
  have hts : tiny ≤ (u ^ 10) ^ 2 := by
    have := tiny_small
    refine this.trans (le_of_eq ?_)
    ring
  have huM : u * M ≤ M / 10 ^ 15 := by
    have := mul_le_mul_of_nonneg_right hus (show 0 ≤ M by linarith)
    linarith
  have huM1 : u ≤ u * M := le_mul_of_one_le_right hu.le hM
  have hu10 : u ^ 10 ≤ u / 200 := by
    have : u ^ 9 ≤ (1 / 10 ^ 15) ^ 9 := pow_le_pow_left₀ hu.le hus 9
    have h9 : u ^ 9 ≤ 1 / 200 := this.trans (by norm_num)
    calc u ^ 10 = u * u ^ 9 := by ring
      _ ≤ u * (1 / 200) := mul_le_mul_of_nonneg_left h9 hu.le
      _ = u / 200 := by ring
  unfold getDistF Geometry.getDist
  have dx : |ax - bx| ≤ 2 * M := (abs_sub _ _).trans (by linarith)
  have dy : |ay - by'| ≤ 2 * M := (abs_sub _ _).trans (by linarith)
  have ex := near_by R dx
  have ey := near_by R dy
  have hmove := norm_move (R.rnd (ax - bx)) (R.rnd (ay - by')) (ax - bx) (ay - by')
  set a := R.rnd (ax - bx)
  set b := R.rnd (ay - by')
  set N := a * a + b * b with hN
  have hN0 : 0 ≤ N := add_nonneg (mul_self_nonneg a) (mul_self_nonneg b)
  have na := R.near (a * a)
  have nb := R.near (b * b)
  rw [abs_of_nonneg (mul_self_nonneg a)] at na
  rw [abs_of_nonneg (mul_self_nonneg b)] at nb
  obtain ⟨na1, na2⟩ := abs_le.mp na
  obtain ⟨nb1, nb2⟩ := abs_le.mp nb
  have ns0 : 0 ≤ R.rnd (a * a) + R.rnd (b * b) := add_nonneg (rnd_nonneg R (mul_self_nonneg a)) (rnd_nonneg R (mul_self_nonneg b))
  have ns := R.near (R.rnd (a * a) + R.rnd (b * b))
  rw [abs_of_nonneg ns0] at ns
  obtain ⟨ns1, ns2⟩ := abs_le.mp ns
  have ht0 : 0 ≤ tiny := by unfold tiny; positivity
  have hsum : u * (R.rnd (a * a) + R.rnd (b * b)) ≤ u * (1.1 * N + 2 * tiny) := by
    apply mul_le_mul_of_nonneg_left _ hu.le
    have : u * N ≤ 1 / 10 ^ 15 * N := mul_le_mul_of_nonneg_right hus hN0
    have e : u * (a * a) + u * (b * b) = u * N := by rw [hN]; ring
    rw [hN] at this ⊢
    have e' : u * (a * a + b * b) = u * (a * a) + u * (b * b) := by ring
    linarith
  have hut : u * (1.1 * N + 2 * tiny) ≤ 1.1 * (u * N) + tiny := by
    have : u * (2 * tiny) ≤ 1 / 10 ^ 15 * (2 * tiny) := mul_le_mul_of_nonneg_right hus (by linarith)
    have e : u * (1.1 * N + 2 * tiny) = 1.1 * (u * N) + u * (2 * tiny) := by ring
    linarith
  have eN : u * (a * a) + u * (b * b) = u * N := by rw [hN]; ring
  have hs : |R.rnd (R.rnd (a * a) + R.rnd (b * b)) - N| ≤ 3 * u * N + (2 * u ^ 10) ^ 2 := by
    have e4 : (2 * u ^ 10) ^ 2 = 4 * (u ^ 10) ^ 2 := by ring
    have huN : 0 ≤ u * N := by positivity
    rw [e4, abs_le]
    constructor
    · rw [hN] at *; linarith
    · rw [hN] at *; linarith
  have hq := sqrt_near (rnd_nonneg R ns0) hN0 (by positivity) (by positivity) (by linarith) hs
  have hL : Real.sqrt ((ax - bx) * (ax - bx) + (ay - by') * (ay - by')) ≤ 4 * M := by
    have := norm_move (ax - bx) (ay - by') 0 0
    simp only [mul_zero, add_zero, Real.sqrt_zero, sub_zero] at this
    have h5 := le_abs_self (Real.sqrt ((ax - bx) * (ax - bx) + (ay - by') * (ay - by')))
    linarith
  obtain ⟨m1, m2⟩ := abs_le.mp hmove
  obtain ⟨q1, q2⟩ := abs_le.mp hq
  have hsN : Real.sqrt N ≤ 4.1 * M := by linarith
  have hsN' : 3 * u * Real.sqrt N ≤ 12.3 * (u * M) := by
    have := mul_le_mul_of_nonneg_left hsN (show 0 ≤ 3 * u by positivity)
    linarith
  have hr := near_by R (x := Real.sqrt (R.rnd (R.rnd (a * a) + R.rnd (b * b)))) (B := 4.2 * M)
    (by rw [abs_of_nonneg (Real.sqrt_nonneg _)]; linarith)
  obtain ⟨r1, r2⟩ := abs_le.mp hr
  rw [abs_le]
  constructor <;> linarith

/-- The two stored positions are near enough to be fused: their distance is less than their accuracies and the border together. -/
def Fuses (cs : CommonSettings) (s : PostState) : Prop :=
  cs.fuseGps = true ∧ Geometry.getDist s.indoorPos.x s.indoorPos.y s.outdoorPos.x s.outdoorPos.y <
    s.indoorPos.deviationM + s.outdoorPos.deviationM + cs.fuseGpsBorderM

/-- The deviation of a stored position, grown by the motion since. -/
noncomputable def grownDev (cs : CommonSettings) (cur : Int) (p : Position) (dev : ℝ) : ℝ := cs.averageMovSpeed * delay cur p + dev

/-- The choice of the fusion is not on the edge: the ages are not just above the limit, the distance is not just the sum of the accuracies and the
border, where one position is chosen the deviations differ, and where the two are fused the deviations are not both small. `S` bounds accuracies,
`M` coordinates. -/
structure Decided (cs : CommonSettings) (s : PostState) (cur : Int) (S M : ℝ) : Prop where
  ageIn : delay cur s.indoorPos ≤ cs.positionIsTooOldSec ∨ cs.positionIsTooOldSec + 1 / 10 ^ 6 ≤ delay cur s.indoorPos
  ageOut : delay cur s.outdoorPos ≤ cs.positionIsTooOldSec ∨ cs.positionIsTooOldSec + 1 / 10 ^ 6 ≤ delay cur s.outdoorPos
  dist : cs.fuseGps = true → (S + M) / 10 ^ 12 ≤ |s.indoorPos.deviationM + s.outdoorPos.deviationM + cs.fuseGpsBorderM -
    Geometry.getDist s.indoorPos.x s.indoorPos.y s.outdoorPos.x s.outdoorPos.y|
  dev : ¬ Fuses cs s → S / 10 ^ 12 ≤ |grownDev cs cur s.indoorPos s.indoorDev - grownDev cs cur s.outdoorPos s.outdoorDev|
  sum : Fuses cs s → S / 1000 ≤ grownDev cs cur s.outdoorPos s.outdoorDev + grownDev cs cur s.indoorPos s.indoorDev ∧
    1 / 100 ≤ grownDev cs cur s.outdoorPos s.outdoorDev + grownDev cs cur s.indoorPos s.indoorDev

/-- Settings for the choice: a limit of the age up to eleven days that is a `double`, a border up to `S`, and a way within the limit up to `S`. -/
structure UsualLimits (cs : CommonSettings) (S : ℝ) : Prop where
  old0 : 0 ≤ cs.positionIsTooOldSec
  old : cs.positionIsTooOldSec ≤ 10 ^ 6
  double : R.rnd cs.positionIsTooOldSec = cs.positionIsTooOldSec
  way : cs.averageMovSpeed * cs.positionIsTooOldSec ≤ S
  speed : cs.averageMovSpeed ≤ S
  border0 : 0 ≤ cs.fuseGpsBorderM
  border : cs.fuseGpsBorderM ≤ S

theorem delay_nonneg (cur : Int) (p : Position) : 0 ≤ delay cur p := by
  unfold delay
  split_ifs with h
  · have : (0 : ℝ) ≤ ((cur - p.ts : Int) : ℝ) := by exact_mod_cast sub_nonneg.mpr h
    positivity
  · exact le_rfl

theorem delay_near (cur : Int) (p : Position) : |delayF R cur p - delay cur p| ≤ 2.1 * (u * delay cur p) + u / 50 := by
  have hu := u_pos
  have hus := u_small
  unfold delayF delay
  by_cases h : cur ≥ p.ts
  · rw [if_pos h, if_pos h]
    have hn : 0 ≤ cur - p.ts := sub_nonneg.mpr h
    have hn' : (0 : ℝ) ≤ ((cur - p.ts : Int) : ℝ) := by exact_mod_cast hn
    have h1 := rnd_nat R hn
    generalize ((cur - p.ts : Int) : ℝ) = n at *
    obtain ⟨a1, a2⟩ := abs_le.mp h1
    have hun : u * n ≤ n / 10 ^ 15 := by
      have := mul_le_mul_of_nonneg_right hus hn'
      linarith
    have hun0 : 0 ≤ u * n := by positivity
    have h2 := near_by R (x := R.rnd n / 1000) (B := 1.001 * (n / 1000)) (by rw [abs_le]; constructor <;> linarith)
    obtain ⟨b1, b2⟩ := abs_le.mp h2
    rw [abs_le]
    constructor <;> linarith
  · rw [if_neg h, if_neg h]
    simp
    positivity

/-- The test of the age. -/
theorem age_iff (hR : Binary R) {cs : CommonSettings} {S : ℝ} (hl : UsualLimits R cs S) (cur : Int) (p : Position) (hc : cur - p.ts ≤ 2 ^ 53)
    (h : delay cur p ≤ cs.positionIsTooOldSec ∨ cs.positionIsTooOldSec + 1 / 10 ^ 6 ≤ delay cur p) :
    delayF R cur p > cs.positionIsTooOldSec ↔ delay cur p > cs.positionIsTooOldSec := by
  rcases h with h | h
  · refine ⟨fun hF => absurd hF (not_lt.mpr ?_), fun hE => absurd hE (not_lt.mpr h)⟩
    unfold delayF
    unfold delay at h
    split_ifs at h ⊢ with hp
    · rw [rnd_int R hR (n := cur - p.ts) (by rw [abs_of_nonneg (sub_nonneg.mpr hp)]; exact hc)]
      have := R.mono h
      rwa [hl.double] at this
    · exact h
  · have h1 := abs_le.mp (delay_near R cur p)
    have hu := u_pos
    have hus := u_small
    have hd := delay_nonneg cur p
    have hud : u * delay cur p ≤ delay cur p / 10 ^ 15 := by
      have := mul_le_mul_of_nonneg_right hus hd
      linarith
    have := hl.old
    have h0 := hl.old0
    constructor
    · intro _; linarith
    · intro _
      show cs.positionIsTooOldSec < _
      linarith [h1.1]

theorem delayF_nonneg (cur : Int) (p : Position) : 0 ≤ delayF R cur p := by
  unfold delayF
  split_ifs with h
  · have : (0 : ℝ) ≤ ((cur - p.ts : Int) : ℝ) := by exact_mod_cast sub_nonneg.mpr h
    exact rnd_nonneg R (div_nonneg (rnd_nonneg R this) (by norm_num))
  · exact le_rfl

/-- The deviation grown by the motion. -/
theorem grown_near {S v T d d' : ℝ} (cur : Int) (p : Position) (hS : 1 ≤ S) (hv : 0 ≤ v) (hT : delay cur p ≤ T) (hvT : v * T ≤ S) (hv1 : v ≤ S)
    (hd0 : 0 ≤ d) (hd : d ≤ S) (hd' : 0 ≤ d') (he : |d' - d| ≤ 20 * (u * S)) :
    |grownF R v (delayF R cur p) d' - (v * delay cur p + d)| ≤ 26 * (u * S) ∧ 0 ≤ grownF R v (delayF R cur p) d' ∧
      0 ≤ v * delay cur p + d ∧ v * delay cur p + d ≤ 2 * S := by
  have hu := u_pos
  have hus := u_small
  have h1 := delay_near R cur p
  have h0 := delay_nonneg cur p
  have hF := delayF_nonneg R cur p
  have hw : v * delay cur p ≤ S := (mul_le_mul_of_nonneg_left hT hv).trans hvT
  have hw0 : 0 ≤ v * delay cur p := mul_nonneg hv h0
  have huS : u * S ≤ S / 10 ^ 15 := by
    have := mul_le_mul_of_nonneg_right hus (show 0 ≤ S by linarith)
    linarith
  have huS1 : u ≤ u * S := le_mul_of_one_le_right hu.le hS
  have h2 : |v * delayF R cur p - v * delay cur p| ≤ 2.13 * (u * S) := by
    rw [← mul_sub, abs_mul, abs_of_nonneg hv]
    have a := mul_le_mul_of_nonneg_left h1 hv
    have b : u * (v * delay cur p) ≤ u * S := mul_le_mul_of_nonneg_left hw hu.le
    have c : u * v ≤ u * S := mul_le_mul_of_nonneg_left hv1 hu.le
    have e : v * (2.1 * (u * delay cur p) + u / 50) = 2.1 * (u * (v * delay cur p)) + u * v / 50 := by ring
    rw [e] at a
    linarith
  obtain ⟨a1, a2⟩ := abs_le.mp h2
  obtain ⟨e1, e2⟩ := abs_le.mp he
  unfold grownF
  have h3 := near_by R (x := v * delayF R cur p) (B := 1.001 * S) (by rw [abs_le]; constructor <;> linarith)
  obtain ⟨b1, b2⟩ := abs_le.mp h3
  have h4 := near_by R (x := R.rnd (v * delayF R cur p) + d') (B := 2.01 * S) (by rw [abs_le]; constructor <;> linarith)
  obtain ⟨c1, c2⟩ := abs_le.mp h4
  refine ⟨by rw [abs_le]; constructor <;> linarith, ?_, by linarith, by linarith⟩
  exact rnd_nonneg R (add_nonneg (rnd_nonneg R (mul_nonneg hv hF)) hd')

/-- The mean of two places with deviations that are a little off. -/
theorem fuseMean_near {p q dp dq dp' dq' S M : ℝ} (hS : 1 ≤ S) (hM : 1 ≤ M) (hp : |p| ≤ M) (hq : |q| ≤ M) (a0 : 0 ≤ dp) (b0 : 0 ≤ dq)
    (a0' : 0 ≤ dp') (b0' : 0 ≤ dq') (ha : |dp' - dp| ≤ 26 * (u * S)) (hb : |dq' - dq| ≤ 26 * (u * S)) (hW : S / 1000 ≤ dq + dp) (hW1 : 1 / 100 ≤ dq + dp) :
    |fuseMeanF R p q dp' dq' - (p * dq + q * dp) / (dq + dp)| ≤ 4 / 10 ^ 15 * (S / (dq + dp)) * |p - q| + 2 / 10 ^ 15 * M := by
  have hu := u_pos
  have hut := u_tight
  have huS : u * S ≤ 12 / 10 ^ 17 * S := mul_le_mul_of_nonneg_right hut (by linarith)
  obtain ⟨x1, x2⟩ := abs_le.mp ha
  obtain ⟨y1, y2⟩ := abs_le.mp hb
  set W := dq + dp with hWd
  have hWp : 0 < W := by linarith
  set V := dq' + dp' with hVd
  have hV : 99 / 100 * W ≤ V := by rw [hVd, hWd] at *; linarith
  have hVp : 0 < V := by linarith
  have h := mean_round R (w1 := dq') (w2 := dp') (w3 := 0) (c1 := p) (c2 := q) (c3 := 0) b0' a0' le_rfl (by linarith) hM hp hq
    (by rw [abs_zero]; linarith)
  have e : meanF R dq' dp' 0 p q 0 (R.rnd (R.rnd (dq' + dp') + 0)) = fuseMeanF R p q dp' dq' := by
    unfold meanF fuseMeanF
    rw [mul_zero, R.zero, add_zero, add_zero, R.idem, R.idem, mul_comm dq' p, mul_comm dp' q]
  rw [e, mul_zero, add_zero, add_zero, ← hVd] at h
  have hmove : (dq' * p + dp' * q) / V - (p * dq + q * dp) / W = ((dq' - dq) * dp - dq * (dp' - dp)) * (p - q) / (V * W) := by
    rw [div_sub_div _ _ hVp.ne' hWp.ne']
    congr 1
    rw [hVd, hWd]; ring
  have hb2 : |((dq' - dq) * dp - dq * (dp' - dp)) * (p - q) / (V * W)| ≤ 4 / 10 ^ 15 * (S / W) * |p - q| := by
    rw [abs_div, abs_mul, abs_of_pos (mul_pos hVp hWp), div_le_iff₀ (mul_pos hVp hWp)]
    have h1 : |(dq' - dq) * dp - dq * (dp' - dp)| ≤ 26 * (u * S) * W := by
      have t1 : |(dq' - dq) * dp| ≤ 26 * (u * S) * dp := by rw [abs_mul, abs_of_nonneg a0]; exact mul_le_mul_of_nonneg_right hb a0
      have t2 : |dq * (dp' - dp)| ≤ dq * (26 * (u * S)) := by rw [abs_mul, abs_of_nonneg b0]; exact mul_le_mul_of_nonneg_left ha b0
      have := abs_sub ((dq' - dq) * dp) (dq * (dp' - dp))
      have e : 26 * (u * S) * W = 26 * (u * S) * dp + dq * (26 * (u * S)) := by rw [hWd]; ring
      linarith
    have h2 := mul_le_mul_of_nonneg_right h1 (abs_nonneg (p - q))
    refine h2.trans ?_
    have e1 : 4 / 10 ^ 15 * (S / W) * |p - q| * (V * W) = 4 / 10 ^ 15 * S * V * |p - q| := by field_simp
    rw [e1]
    apply mul_le_mul_of_nonneg_right _ (abs_nonneg _)
    have h3 : 26 * (u * S) * W ≤ 26 * (12 / 10 ^ 17 * S) * W := by
      apply mul_le_mul_of_nonneg_right _ hWp.le
      linarith
    have h4 : 4 / 10 ^ 15 * S * (99 / 100 * W) ≤ 4 / 10 ^ 15 * S * V := mul_le_mul_of_nonneg_left hV (by positivity)
    have : 0 ≤ S * W := by positivity
    linarith
  rw [← hmove] at hb2
  obtain ⟨h1, h2⟩ := abs_le.mp h
  obtain ⟨h3, h4⟩ := abs_le.mp hb2
  rw [abs_le]
  constructor <;> linarith

theorem lt_same {a a' b b' e f : ℝ} (ha : |a' - a| ≤ e) (hb : |b' - b| ≤ f) (h : e + f < |a - b|) : a' < b' ↔ a < b := by
  obtain ⟨x1, x2⟩ := abs_le.mp ha
  obtain ⟨y1, y2⟩ := abs_le.mp hb
  rcases le_total 0 (a - b) with h0 | h0
  · rw [abs_of_nonneg h0] at h
    constructor <;> intro _ <;> linarith
  · rw [abs_of_nonpos h0] at h
    constructor <;> intro _ <;> linarith

/-- The sum of the accuracies and the border. -/
theorem reach_near {a b c S : ℝ} (hS : 1 ≤ S) (a0 : 0 ≤ a) (a1 : a ≤ S) (b0 : 0 ≤ b) (b1 : b ≤ S) (c0 : 0 ≤ c) (c1 : c ≤ S) :
    |R.rnd (R.rnd (a + b) + c) - (a + b + c)| ≤ 6 * (u * S) := by
  have hu := u_pos
  have huS : u * S ≤ S / 10 ^ 15 := by
    have := mul_le_mul_of_nonneg_right u_small (show 0 ≤ S by linarith)
    linarith
  have huS1 : u ≤ u * S := le_mul_of_one_le_right hu.le hS
  have h1 := near_by R (x := a + b) (B := 2 * S) (by rw [abs_le]; constructor <;> linarith)
  obtain ⟨x1, x2⟩ := abs_le.mp h1
  have h2 := near_by R (x := R.rnd (a + b) + c) (B := 3.01 * S) (by rw [abs_le]; constructor <;> linarith)
  obtain ⟨y1, y2⟩ := abs_le.mp h2
  rw [abs_le]
  constructor <;> linarith

/-- The choice with stored deviations that are a little off. -/
theorem choose_close (hR : Binary R) {cs : CommonSettings} {S M : ℝ} (hcs : Usual cs S) (hl : UsualLimits R cs S) (hM : 1 ≤ M) {s' s : PostState}
    (h : CloseStore S s' s) (cur : Int) (indoor outdoor : Position) (status : NavigationStatus)
    (hi : s.indoorPos.isEmpty = true ∨ (0 ≤ s.indoorPos.deviationM ∧ s.indoorPos.deviationM ≤ S) ∧ |s.indoorPos.x| ≤ M ∧ |s.indoorPos.y| ≤ M ∧
      cur - s.indoorPos.ts ≤ 2 ^ 53)
    (ho : s.outdoorPos.isEmpty = true ∨ (0 ≤ s.outdoorPos.deviationM ∧ s.outdoorPos.deviationM ≤ S) ∧ |s.outdoorPos.x| ≤ M ∧
      |s.outdoorPos.y| ≤ M ∧ cur - s.outdoorPos.ts ≤ 2 ^ 53)
    (hd : s.indoorPos.isEmpty = false → s.outdoorPos.isEmpty = false → Decided cs s cur S M) :
    chooseFusedF R cs s' cur indoor outdoor status = chooseFused cs s cur indoor outdoor status ∨
    ∃ W, W = grownDev cs cur s.outdoorPos s.outdoorDev + grownDev cs cur s.indoorPos s.indoorDev ∧ Fuses cs s ∧
      chooseFusedF R cs s' cur indoor outdoor status = { chooseFused cs s cur indoor outdoor status with
        x := (chooseFusedF R cs s' cur indoor outdoor status).x
        y := (chooseFusedF R cs s' cur indoor outdoor status).y
        deviationM := (chooseFusedF R cs s' cur indoor outdoor status).deviationM } ∧
      |(chooseFusedF R cs s' cur indoor outdoor status).x - (chooseFused cs s cur indoor outdoor status).x| ≤
        4 / 10 ^ 15 * (S / W) * |s.indoorPos.x - s.outdoorPos.x| + 2 / 10 ^ 15 * M ∧
      |(chooseFusedF R cs s' cur indoor outdoor status).y - (chooseFused cs s cur indoor outdoor status).y| ≤
        4 / 10 ^ 15 * (S / W) * |s.indoorPos.y - s.outdoorPos.y| + 2 / 10 ^ 15 * M ∧
      |(chooseFusedF R cs s' cur indoor outdoor status).deviationM - (chooseFused cs s cur indoor outdoor status).deviationM| ≤
        4 / 10 ^ 15 * S := by
  have hu := u_pos
  have hS := hcs.one
  have huS : u * S ≤ 12 / 10 ^ 17 * S := mul_le_mul_of_nonneg_right u_tight (by linarith)
  have huM : u * M ≤ 12 / 10 ^ 17 * M := mul_le_mul_of_nonneg_right u_tight (by linarith)
  unfold chooseFusedF chooseFused
  rw [h.indoorPos, h.outdoorPos]
  by_cases c1 : cs.useInstantGpsPosition = true ∧ outdoor.isEmpty = false
  · rw [if_pos c1, if_pos c1]; exact .inl rfl
  rw [if_neg c1, if_neg c1]
  by_cases c2 : cs.preferIndoorSolution = true ∧ indoor.isEmpty = false ∧ status = .OK
  · rw [if_pos c2, if_pos c2]; exact .inl rfl
  rw [if_neg c2, if_neg c2]
  by_cases c3 : cs.useGps = false ∨ s.outdoorPos.isEmpty = true
  · rw [if_pos c3, if_pos c3]; exact .inl rfl
  rw [if_neg c3, if_neg c3]
  by_cases c4 : s.indoorPos.isEmpty = true
  · rw [if_pos c4, if_pos c4]; exact .inl rfl
  rw [if_neg c4, if_neg c4]
  have c3' : ¬ s.outdoorPos.isEmpty = true := fun hh => c3 (.inr hh)
  have hD := hd (by simpa using c4) (by simpa using c3')
  obtain ⟨⟨i0, i1⟩, ix, iy, its⟩ := hi.resolve_left c4
  obtain ⟨⟨o0, o1⟩, ox, oy, ots⟩ := ho.resolve_left c3'
  have aI := age_iff R hR hl cur s.indoorPos its hD.ageIn
  have aO := age_iff R hR hl cur s.outdoorPos ots hD.ageOut
  by_cases c5 : delay cur s.indoorPos > cs.positionIsTooOldSec
  · rw [if_pos c5, if_pos (aI.mpr c5)]; exact .inl rfl
  rw [if_neg c5, if_neg (fun hh => c5 (aI.mp hh))]
  by_cases c6 : delay cur s.outdoorPos > cs.positionIsTooOldSec
  · rw [if_pos c6, if_pos (aO.mpr c6)]; exact .inl rfl
  rw [if_neg c6, if_neg (fun hh => c6 (aO.mp hh))]
  obtain ⟨gI, gI', gI0, gI1⟩ := grown_near R cur s.indoorPos hS hcs.speed (not_lt.mp c5) hl.way hl.speed h.in0 h.in1 h.in2 h.in3
  obtain ⟨gO, gO', gO0, gO1⟩ := grown_near R cur s.outdoorPos hS hcs.speed (not_lt.mp c6) hl.way hl.speed h.out0 h.out1 h.out2 h.out3
  have hfuse : (cs.fuseGps = true ∧ R.rnd (R.rnd (s.indoorPos.deviationM + s.outdoorPos.deviationM) + cs.fuseGpsBorderM) >
      getDistF R s.indoorPos.x s.indoorPos.y s.outdoorPos.x s.outdoorPos.y) ↔ Fuses cs s := by
    unfold Fuses
    refine and_congr_right (fun hf => ?_)
    refine lt_same (dist_near R hM ix iy ox oy) (reach_near R hS i0 i1 o0 o1 hl.border0 hl.border) ?_
    rw [abs_sub_comm]
    have := hD.dist hf
    linarith
  have hdev := hD.dev
  have hsum := hD.sum
  unfold grownDev at hdev hsum ⊢
  set dI' := grownF R cs.averageMovSpeed (delayF R cur s.indoorPos) s'.indoorDev
  set dO' := grownF R cs.averageMovSpeed (delayF R cur s.outdoorPos) s'.outdoorDev
  set dI := cs.averageMovSpeed * delay cur s.indoorPos + s.indoorDev
  set dO := cs.averageMovSpeed * delay cur s.outdoorPos + s.outdoorDev
  by_cases c7 : Fuses cs s
  · right
    obtain ⟨w1, w2⟩ := hsum c7
    have hne : dO + dI ≠ 0 := by linarith
    have c7' : cs.fuseGps = true ∧ s.indoorPos.deviationM + s.outdoorPos.deviationM + cs.fuseGpsBorderM >
      Geometry.getDist s.indoorPos.x s.indoorPos.y s.outdoorPos.x s.outdoorPos.y := c7
    refine ⟨_, rfl, c7, ?_⟩
    simp only [if_pos c7', if_pos (hfuse.mpr c7)]
    refine ⟨trivial, ?_, ?_, ?_⟩
    · rw [divide_eq hne]
      exact fuseMean_near R hS hM ix ox gI0 gO0 gI' gO' gI gO w1 w2
    · rw [divide_eq hne]
      exact fuseMean_near R hS hM iy oy gI0 gO0 gI' gO' gI gO w1 w2
    · have := abs_min_sub_min_le_max dI' dO' dI dO
      refine this.trans ((max_le gI gO).trans ?_)
      linarith
  · left
    have c7' : ¬ (cs.fuseGps = true ∧ s.indoorPos.deviationM + s.outdoorPos.deviationM + cs.fuseGpsBorderM >
      Geometry.getDist s.indoorPos.x s.indoorPos.y s.outdoorPos.x s.outdoorPos.y) := c7
    simp only [if_neg c7', if_neg (fun hh => c7 (hfuse.mp hh))]
    have hlt := lt_same gI gO (by have := hdev c7; linarith)
    by_cases c8 : dI < dO
    · rw [if_pos c8, if_pos (hlt.mpr c8)]
    · rw [if_neg c8, if_neg (fun hh => c8 (hlt.mp hh))]

/-- **C160.** The answer of the fusion: after every history of calls with positions in the order of their times, where the choice is not on the edge,
the rounded answer is the exact one if that is a position of one source, and if the two are fused it differs from the exact one only in the coordinates
and the deviation, by at most 4·10⁻¹⁵ of the deviations and 2·10⁻¹⁵ of the coordinates, the first weighted by how far the two positions are apart. -/
theorem C160_answer (hR : Binary R) {cs : CommonSettings} {S M : ℝ} (hcs : Usual cs S) (hl : UsualLimits R cs S) (hM : 1 ≤ M)
    (calls : List FuseCall) (c : FuseCall)
    (hi : Orderly S (fixes (·.indoor) (calls ++ [c]))) (ho : Orderly S (fixes (·.outdoor) (calls ++ [c])))
    (hp : ∀ p ∈ fixes (·.indoor) (calls ++ [c]) ++ fixes (·.outdoor) (calls ++ [c]), |p.x| ≤ M ∧ |p.y| ≤ M ∧ c.curTs - p.ts ≤ 2 ^ 53)
    (s : PostState) (hs : s = fuseRun cs (calls ++ [c]))
    (hd : s.indoorPos.isEmpty = false → s.outdoorPos.isEmpty = false → Decided cs s c.curTs S M)
    (a a' : Position) (ha : a = (fusePositions cs (fuseRun cs calls) c.curTs c.indoor c.outdoor c.status).1)
    (ha' : a' = (fusePositionsF R cs (fuseRunF R cs calls) c.curTs c.indoor c.outdoor c.status).1) :
    a' = a ∨
    ∃ W, W = grownDev cs c.curTs s.outdoorPos s.outdoorDev + grownDev cs c.curTs s.indoorPos s.indoorDev ∧ Fuses cs s ∧
      a' = { a with x := a'.x, y := a'.y, deviationM := a'.deviationM } ∧
      |a'.x - a.x| ≤ 4 / 10 ^ 15 * (S / W) * |s.indoorPos.x - s.outdoorPos.x| + 2 / 10 ^ 15 * M ∧
      |a'.y - a.y| ≤ 4 / 10 ^ 15 * (S / W) * |s.indoorPos.y - s.outdoorPos.y| + 2 / 10 ^ 15 * M ∧
      |a'.deviationM - a.deviationM| ≤ 4 / 10 ^ 15 * S := by
  obtain ⟨h, m1, m2⟩ := run_close R hcs (calls ++ [c]) hi ho
  have e : fuseRun cs (calls ++ [c]) = fillOutdoor cs (fillIndoor cs (fuseRun cs calls) c.indoor) c.outdoor := by
    simp [fuseRun, fusePositions]
  have eF : fuseRunF R cs (calls ++ [c]) = fillOutdoorF R cs (fillIndoorF R cs (fuseRunF R cs calls) c.indoor) c.outdoor := by
    simp [fuseRunF, fusePositionsF]
  have ea : a = chooseFused cs s c.curTs c.indoor c.outdoor c.status := by rw [ha, hs, e]; rfl
  have ea' : a' = chooseFusedF R cs (fuseRunF R cs (calls ++ [c])) c.curTs c.indoor c.outdoor c.status := by rw [ha', eF]; rfl
  rw [← hs] at h m1 m2
  have := choose_close R hR hcs hl hM h c.curTs c.indoor c.outdoor c.status
    (m1.imp id (fun hm => ⟨hi.acc _ hm, hp _ (List.mem_append_left _ hm)⟩))
    (m2.imp id (fun hm => ⟨ho.acc _ hm, hp _ (List.mem_append_right _ hm)⟩)) hd
  rw [← ea, ← ea'] at this
  exact this

/-- Settings with satellite positions that are fused with the indoor ones. -/
noncomputable def fuseSettings : CommonSettings := { useGps := true, fuseGps := true }

/-- A device at the origin by the indoor algorithm and at (3, 4) by satellites, a second later. -/
noncomputable def fuseCall : FuseCall := ⟨2000, ⟨0, 0, "1", 2, 1000, false, .INDOOR, 0⟩, ⟨3, 4, "1", 10, 1000, false, .GNSS, 0⟩, .OK⟩

theorem fuse_limits : UsualLimits nearest fuseSettings 100 := by
  refine ⟨?_, ?_, ?_, ?_, ?_, ?_, ?_⟩
  · norm_num [fuseSettings]
  · norm_num [fuseSettings]
  · have := rnd_int nearest C137_nearest (n := 20) (by norm_num)
    simp only [fuseSettings]
    exact_mod_cast this
  all_goals norm_num [fuseSettings]

theorem fuse_usual : Usual fuseSettings 100 := by constructor <;> norm_num [fuseSettings]

theorem fuse_state :
    let s := fuseRun fuseSettings [fuseCall, fuseCall]
    s.indoorPos = fuseCall.indoor ∧ s.outdoorPos = fuseCall.outdoor ∧ s.indoorDev = 14 ∧ s.outdoorDev = 20 := by
  intro s
  refine ⟨?_, ?_, ?_, ?_⟩ <;>
    norm_num [s, fuseRun, fusePositions, fillOutdoor, fillIndoor, fuseCall, postInit, Position.default, priorDev, fuseSettings]

theorem fuse_dist : Geometry.getDist 0 0 3 4 = 5 := by
  unfold Geometry.getDist
  rw [show ((0 : ℝ) - 3) * (0 - 3) + (0 - 4) * (0 - 4) = 5 ^ 2 by norm_num]
  exact Real.sqrt_sq (by norm_num)

theorem fuse_decided :
    let s := fuseRun fuseSettings [fuseCall, fuseCall]
    Fuses fuseSettings s ∧ Decided fuseSettings s 2000 100 5 := by
  intro s
  obtain ⟨hI, hO, dI, dO⟩ := fuse_state
  have hd := fuse_dist
  have hF : Fuses fuseSettings s := by
    unfold Fuses
    rw [hI, hO]
    refine ⟨rfl, ?_⟩
    show Geometry.getDist 0 0 3 4 < 2 + 10 + 10
    rw [hd]; norm_num
  have gI : grownDev fuseSettings 2000 s.indoorPos s.indoorDev = 15 := by
    rw [hI, dI]; norm_num [grownDev, delay, fuseSettings, fuseCall]
  have gO : grownDev fuseSettings 2000 s.outdoorPos s.outdoorDev = 21 := by
    rw [hO, dO]; norm_num [grownDev, delay, fuseSettings, fuseCall]
  refine ⟨hF, ?_, ?_, ?_, fun h => absurd hF h, ?_⟩
  · left; rw [hI]; norm_num [delay, fuseSettings, fuseCall]
  · left; rw [hO]; norm_num [delay, fuseSettings, fuseCall]
  · intro _
    rw [hI, hO]
    show (100 + 5) / 10 ^ 12 ≤ |2 + 10 + 10 - Geometry.getDist 0 0 3 4|
    rw [hd]; norm_num
  · intro _; rw [gI, gO]; norm_num

/-- The hypotheses of `C160_answer` are met by two calls with default settings; the two positions are fused, and the rounded answer has the
deviation of the exact one up to 4·10⁻¹³. -/
example : |(fusePositionsF nearest fuseSettings (fuseRunF nearest fuseSettings [fuseCall]) 2000 fuseCall.indoor fuseCall.outdoor .OK).1.deviationM -
    (fusePositions fuseSettings (fuseRun fuseSettings [fuseCall]) 2000 fuseCall.indoor fuseCall.outdoor .OK).1.deviationM| ≤ 4 / 10 ^ 13 := by
  have f1 : fixes (·.indoor) ([fuseCall] ++ [fuseCall]) = [fuseCall.indoor, fuseCall.indoor] := by simp [fixes, fuseCall]
  have f2 : fixes (·.outdoor) ([fuseCall] ++ [fuseCall]) = [fuseCall.outdoor, fuseCall.outdoor] := by simp [fixes, fuseCall]
  have o1 : Orderly 100 (fixes (·.indoor) ([fuseCall] ++ [fuseCall])) := by
    rw [f1]; refine ⟨by simp, ?_⟩; intro p hp; simp at hp; subst hp; norm_num [fuseCall]
  have o2 : Orderly 100 (fixes (·.outdoor) ([fuseCall] ++ [fuseCall])) := by
    rw [f2]; refine ⟨by simp, ?_⟩; intro p hp; simp at hp; subst hp; norm_num [fuseCall]
  have := C160_answer nearest C137_nearest fuse_usual fuse_limits (M := 5) (by norm_num) [fuseCall] fuseCall o1 o2
    (by rw [f1, f2]; intro p hp; simp at hp; rcases hp with rfl | rfl <;> norm_num [fuseCall])
    _ rfl (fun _ _ => fuse_decided.2) _ _ rfl rfl
  rcases this with h | ⟨W, -, -, -, -, -, h⟩
  · have h' : (fusePositionsF nearest fuseSettings (fuseRunF nearest fuseSettings [fuseCall]) 2000 fuseCall.indoor fuseCall.outdoor .OK).1 =
      (fusePositions fuseSettings (fuseRun fuseSettings [fuseCall]) 2000 fuseCall.indoor fuseCall.outdoor .OK).1 := h
    rw [h', sub_self, abs_zero]; norm_num
  · exact h.trans (by norm_num)

end Verif.Fp
