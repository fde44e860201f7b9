import Verif.Smooth.Model
import Verif.Geometry.Spec
import Mathlib.Tactic.LinearCombination
import Mathlib.Tactic.Linarith
import Mathlib.Tactic.FieldSimp
import Mathlib.Tactic.NormNum
import Mathlib.Data.List.Induction
import Mathlib.Analysis.SpecificLimits.Basic

/-! # Properties of the alpha-beta smoother (C41, C42) -/

namespace Verif.Smooth

open Verif.Geo (XYPoint)

/-! ## Specification -/

/-- The point between `p` (part 0) and `q` (part 1) at the part `a`. -/
noncomputable def between (p q : XYPoint) (a : ℝ) : XYPoint := ⟨p.x + a * (q.x - p.x), p.y + a * (q.y - p.y)⟩

/-- Seconds from the last smoothed position to the new one. -/
noncomputable def elapsed (s : AbState) (pos : Position) : ℝ := ((pos.ts - s.position.ts : Int) : ℝ) / 1000

/-- The last smoothed position moved with the current speed. -/
noncomputable def prediction (s : AbState) (pos : Position) : XYPoint :=
  ⟨s.position.x + s.speedX * elapsed s pos, s.position.y + s.speedY * elapsed s pos⟩

/-- The corrected speed: the current one plus `a²/(2-a)` of the speed that would explain the error of the
prediction. -/
noncomputable def correctedSpeed (s : AbState) (pos : Position) (a : ℝ) : XYPoint :=
  ⟨s.speedX + a ^ 2 / (2 - a) * ((pos.x - (prediction s pos).x) / elapsed s pos),
   s.speedY + a ^ 2 / (2 - a) * ((pos.y - (prediction s pos).y) / elapsed s pos)⟩

/-- One call of a public function of the smoother; each call to `smoothPosition` may see another level. -/
inductive AbOp where
  | smooth (pos : Position) (allowed : ℝ → ℝ → Prop)
  | reset (pos : Position)

/-- Effect of a call on the object. -/
noncomputable def abStep (P : AbParams) (s : AbState) : AbOp → AbState
  | .smooth pos allowed => (abSmooth P allowed s pos).2
  | .reset pos => abReset s pos

/-- The object after a history. -/
noncomputable def abRun (P : AbParams) (ops : List AbOp) : AbState := ops.foldl (abStep P) abInit

/-! ## C41 -/

/-- **C41.** The gain used for any state and measurement, with any settings, lies in [0.1, 0.9]. -/
theorem C41_gain (cs : CommonSettings) (s : AbState) (pos : Position) :
    1 / 10 ≤ abGain (abParams cs) s pos ∧ abGain (abParams cs) s pos ≤ 9 / 10 := by
  unfold abGain
  split_ifs
  · constructor
    · refine le_min (le_max_left _ _) ?_
      unfold MAX_ALPHA; norm_num
    · exact min_le_right _ _
  · unfold abParams MIN_ALPHA MAX_ALPHA
    dsimp only
    have h0 : 0 ≤ min 1 (max 0 cs.smoothing) := le_min zero_le_one (le_max_left _ _)
    have h1 : min 1 (max 0 cs.smoothing) ≤ 1 := min_le_left _ _
    constructor <;> linarith

theorem gain_lt (cs : CommonSettings) (s : AbState) (pos : Position) : abGain (abParams cs) s pos < 2 :=
  lt_of_le_of_lt (C41_gain cs s pos).2 (by norm_num)

/-- **C41.** Without accuracy smoothing the gain falls from 0.9 to 0.1 as the smoothing setting grows
from 0 to 1. -/
theorem C41_gain_setting (cs : CommonSettings) (h : cs.useAccuracyForSmoothing = false)
    (h0 : 0 ≤ cs.smoothing) (h1 : cs.smoothing ≤ 1) (s : AbState) (pos : Position) :
    abGain (abParams cs) s pos = 9 / 10 - 8 / 10 * cs.smoothing := by
  unfold abGain abParams MIN_ALPHA MAX_ALPHA
  simp only [h, max_eq_right h0, min_eq_right h1]
  norm_num; ring

/-- **C41.** With accuracy smoothing the gain is the share of the smoothed position's deviation in the sum of both
deviations and half a metre, limited to [0.1, 0.9]: the less accurate the measurement, the smaller its influence. -/
theorem C41_gain_accuracy (cs : CommonSettings) (h : cs.useAccuracyForSmoothing = true) (s : AbState) (pos : Position) :
    let own := s.position.deviationM
    let new := pos.deviationM
    let share := own / (own + new + 1 / 2)
    (own + new + 1 / 2 ≠ 0 →
      (share ≤ 1 / 10 → abGain (abParams cs) s pos = 1 / 10) ∧
      (1 / 10 ≤ share → share ≤ 9 / 10 → abGain (abParams cs) s pos = share) ∧
      (9 / 10 ≤ share → abGain (abParams cs) s pos = 9 / 10)) ∧
    (0 ≤ own → 0 ≤ new → ∀ pos' : Position, new ≤ pos'.deviationM →
      abGain (abParams cs) s pos' ≤ abGain (abParams cs) s pos) := by
  intro own new share
  have hg : ∀ p : Position, own + p.deviationM + 1 / 2 ≠ 0 →
      abGain (abParams cs) s p = min (max (1 / 10) (own / (own + p.deviationM + 1 / 2))) (9 / 10) := by
    intro p h0
    have hp : (abParams cs).useAccuracyForSmoothing = true := h
    unfold abGain MIN_ALPHA MAX_ALPHA
    rw [if_pos hp, add_comm p.deviationM, divide_eq h0]
  refine ⟨fun h0 => ⟨?_, ?_, ?_⟩, ?_⟩
  · intro h1
    rw [hg pos h0, max_eq_left h1]; norm_num
  · intro h1 h2
    rw [hg pos h0, max_eq_right h1, min_eq_left h2]
  · intro h1
    have h2 : (1 : ℝ) / 10 ≤ share := le_trans (by norm_num) h1
    rw [hg pos h0, max_eq_right h2, min_eq_right h1]
  · intro ho hn pos' hle
    rw [hg pos (by linarith : (0 : ℝ) < own + new + 1 / 2).ne', hg pos' (by linarith : (0 : ℝ) < own + pos'.deviationM + 1 / 2).ne']
    refine min_le_min_right _ (max_le_max_left _ ?_)
    exact div_le_div_of_nonneg_left ho (by linarith) (by linarith)

/-- **C41.** A measurement that is not newer than the state returns the state. -/
theorem C41_not_newer (P : AbParams) (allowed : ℝ → ℝ → Prop) (s : AbState) (pos : Position)
    (h : pos.ts ≤ s.position.ts) : abSmooth P allowed s pos = (s.position, s) := by
  unfold abSmooth
  exact if_neg (not_lt.mpr h)

/-- The measurement is taken over unsmoothed: first call, gap over ten seconds, too fast, or barrier. -/
def TakenRaw (P : AbParams) (allowed : ℝ → ℝ → Prop) (s : AbState) (pos : Position) (a : ℝ) : Prop :=
  s.wasCalled = false ∨ elapsed s pos > 10 ∨
    (P.useSpeedConstraint = true ∧
      4 < Real.sqrt ((correctedSpeed s pos a).x ^ 2 + (correctedSpeed s pos a).y ^ 2)) ∨
    (P.useBarriers = true ∧
      ¬ allowed (between (prediction s pos) pos.toXY a).x (between (prediction s pos) pos.toXY a).y)

theorem abSmooth_newer (P : AbParams) (allowed : ℝ → ℝ → Prop) (s : AbState) (pos : Position)
    (hnew : s.position.ts < pos.ts) (hlt : abGain P s pos < 2) :
    (TakenRaw P allowed s pos (abGain P s pos) →
      abSmooth P allowed s pos = (pos, ⟨true, 0, 0, pos⟩)) ∧
    (¬ TakenRaw P allowed s pos (abGain P s pos) → ∃ out, abSmooth P allowed s pos =
      (out, ⟨s.wasCalled, (correctedSpeed s pos (abGain P s pos)).x,
        (correctedSpeed s pos (abGain P s pos)).y, out⟩) ∧
      out.toXY = between (prediction s pos) pos.toXY (abGain P s pos) ∧
      out.levelId = pos.levelId ∧ out.ts = pos.ts ∧ out.isEmpty = pos.isEmpty ∧
      out.provider = pos.provider ∧ out.heading = pos.heading ∧
      (P.useAccuracyForSmoothing = false → out.deviationM = pos.deviationM) ∧
      (P.useAccuracyForSmoothing = true → out.deviationM =
        pos.deviationM + (1 - abGain P s pos) * (elapsed s pos * Real.sqrt ((correctedSpeed s pos (abGain P s pos)).x ^ 2 +
          (correctedSpeed s pos (abGain P s pos)).y ^ 2)))) := by
  set a := abGain P s pos with ha
  have ht : (0 : ℝ) < ((pos.ts - s.position.ts : Int) : ℝ) / 1000 := by
    have : (0 : ℝ) < ((pos.ts - s.position.ts : Int) : ℝ) := by exact_mod_cast sub_pos.mpr hnew
    positivity
  have hcx : s.speedX + (a * a / (2 - a) / (((pos.ts - s.position.ts : Int) : ℝ) / 1000)) *
      (pos.x - (s.position.x + s.speedX * (((pos.ts - s.position.ts : Int) : ℝ) / 1000))) =
      (correctedSpeed s pos a).x := by
    unfold correctedSpeed prediction elapsed; dsimp only; ring
  have hcy : s.speedY + (a * a / (2 - a) / (((pos.ts - s.position.ts : Int) : ℝ) / 1000)) *
      (pos.y - (s.position.y + s.speedY * (((pos.ts - s.position.ts : Int) : ℝ) / 1000))) =
      (correctedSpeed s pos a).y := by
    unfold correctedSpeed prediction elapsed; dsimp only; ring
  unfold abSmooth
  dsimp only
  rw [if_pos hnew, ← ha, divide_pos (by linarith : 0 < 2 - a), divide_pos ht, hcx, hcy]
  have hiff : (s.wasCalled = false ∨ ((pos.ts - s.position.ts : Int) : ℝ) / 1000 > TIME_THRESHOLD_SEC ∨
      (P.useSpeedConstraint = true ∧ Real.sqrt ((correctedSpeed s pos a).x * (correctedSpeed s pos a).x +
        (correctedSpeed s pos a).y * (correctedSpeed s pos a).y) > MAX_OBJECT_VELOCITY_MPS) ∨
      (P.useBarriers = true ∧
        ¬ allowed (s.position.x + s.speedX * (((pos.ts - s.position.ts : Int) : ℝ) / 1000) +
          a * (pos.x - (s.position.x + s.speedX * (((pos.ts - s.position.ts : Int) : ℝ) / 1000))))
        (s.position.y + s.speedY * (((pos.ts - s.position.ts : Int) : ℝ) / 1000) +
          a * (pos.y - (s.position.y + s.speedY * (((pos.ts - s.position.ts : Int) : ℝ) / 1000)))))) ↔
      TakenRaw P allowed s pos a := by
    unfold TakenRaw TIME_THRESHOLD_SEC MAX_OBJECT_VELOCITY_MPS
    simp only [pow_two]
    rfl
  constructor
  · intro h
    rw [if_pos (hiff.mpr h)]
  · intro h
    rw [if_neg (fun h' => h (hiff.mp h'))]
    refine ⟨_, rfl, rfl, rfl, rfl, rfl, rfl, rfl, fun hacc => ?_, fun hacc => ?_⟩
    · rw [hacc]; rfl
    · rw [hacc, pow_two, pow_two]; dsimp only [elapsed]; rw [if_pos rfl]; ring

/-- **C41.** A newer measurement: either it is taken over as it is and the speed becomes zero, exactly on
the first call, after a gap of more than ten seconds, for a corrected speed over 4 m/s with the speed
constraint, or when the smoothed point is behind a barrier; or the output is a point strictly between
the prediction and the measurement, with the rest of the measurement kept. -/
theorem C41_smooth (cs : CommonSettings) (allowed : ℝ → ℝ → Prop) (s : AbState) (pos : Position)
    (hnew : s.position.ts < pos.ts) :
    ∃ a : ℝ, 1 / 10 ≤ a ∧ a ≤ 9 / 10 ∧
      (TakenRaw (abParams cs) allowed s pos a →
        (abSmooth (abParams cs) allowed s pos).1 = pos ∧
        (abSmooth (abParams cs) allowed s pos).2.speedX = 0 ∧
        (abSmooth (abParams cs) allowed s pos).2.speedY = 0) ∧
      (¬ TakenRaw (abParams cs) allowed s pos a →
        (abSmooth (abParams cs) allowed s pos).1.toXY = between (prediction s pos) pos.toXY a ∧
        (abSmooth (abParams cs) allowed s pos).1.levelId = pos.levelId ∧
        (abSmooth (abParams cs) allowed s pos).1.ts = pos.ts ∧
        (abSmooth (abParams cs) allowed s pos).1.isEmpty = pos.isEmpty ∧
        (abSmooth (abParams cs) allowed s pos).2.speedX = (correctedSpeed s pos a).x ∧
        (abSmooth (abParams cs) allowed s pos).2.speedY = (correctedSpeed s pos a).y) := by
  obtain ⟨g0, g1⟩ := C41_gain cs s pos
  obtain ⟨h1, h2⟩ := abSmooth_newer (abParams cs) allowed s pos hnew (by linarith)
  refine ⟨_, g0, g1, fun h => ?_, fun h => ?_⟩
  · rw [h1 h]; exact ⟨rfl, rfl, rfl⟩
  · obtain ⟨out, e, o1, o2, o3, o4, -⟩ := h2 h
    rw [e]; exact ⟨o1, o2, o3, o4, rfl, rfl⟩

/-- **C41.** The deviation of a smoothed position is that of the measurement; with accuracy smoothing it is larger by the way
made at the corrected speed since the last position, times the part the measurement does not have. -/
theorem C41_deviation (cs : CommonSettings) (allowed : ℝ → ℝ → Prop) (s : AbState) (pos : Position)
    (hnew : s.position.ts < pos.ts) :
    let a := abGain (abParams cs) s pos
    ¬ TakenRaw (abParams cs) allowed s pos a →
      (abSmooth (abParams cs) allowed s pos).1.deviationM = pos.deviationM +
        (if cs.useAccuracyForSmoothing = true then (1 - a) * (elapsed s pos *
          Real.sqrt ((correctedSpeed s pos a).x ^ 2 + (correctedSpeed s pos a).y ^ 2)) else 0) := by
  intro a h
  obtain ⟨out, e, -, -, -, -, -, -, o1, o2⟩ := (abSmooth_newer (abParams cs) allowed s pos hnew (gain_lt _ _ _)).2 h
  rw [e]
  by_cases hacc : cs.useAccuracyForSmoothing = true
  · rw [if_pos hacc]; exact o2 hacc
  · rw [if_neg hacc, add_zero]; exact o1 (Bool.eq_false_iff.mpr hacc)

/-- **C41.** The returned position is kept as the state, whatever the call. -/
theorem C41_state (P : AbParams) (allowed : ℝ → ℝ → Prop) (s : AbState) (pos : Position) :
    (abSmooth P allowed s pos).2.position = (abSmooth P allowed s pos).1 ∧
    (abSmooth P allowed s pos).1.ts = max s.position.ts pos.ts := by
  by_cases hnew : s.position.ts < pos.ts
  · unfold abSmooth
    dsimp only
    rw [if_pos hnew]
    split_ifs
    · exact ⟨rfl, (max_eq_right hnew.le).symm⟩
    · exact ⟨rfl, (max_eq_right hnew.le).symm⟩
    · exact ⟨rfl, (max_eq_right hnew.le).symm⟩
  · rw [C41_not_newer P allowed s pos (not_lt.mp hnew)]
    exact ⟨rfl, (max_eq_left (not_lt.mp hnew)).symm⟩

/-- **C41.** After a reset to a position, smoothing that position returns it as it is. -/
theorem C41_reset (P : AbParams) (allowed : ℝ → ℝ → Prop) (s : AbState) (pos : Position) :
    (abSmooth P allowed (abReset s pos) pos).1 = pos := by
  rw [C41_not_newer P allowed (abReset s pos) pos le_rfl]; rfl

/-- **C41.** After a reset the next, newer measurement is not taken over but pulled towards the reset
position: the prediction is that position. -/
theorem C41_reset_prediction (s : AbState) (p q : Position) :
    prediction (abReset s p) q = p.toXY := by
  simp [prediction, abReset, Position.toXY]

/-- **C41.** With the speed constraint no history leaves a stored speed above 4 m/s. -/
theorem C41_speed (cs : CommonSettings) (hP : cs.useSpeedConstraint = true) (ops : List AbOp) :
    let P := abParams cs
    (abRun P ops).speedX ^ 2 + (abRun P ops).speedY ^ 2 ≤ 4 ^ 2 := by
  intro P
  induction ops using List.reverseRecOn with
  | nil => simp [abRun, abInit]
  | append_singleton ops op ih =>
    have e : abRun P (ops ++ [op]) = abStep P (abRun P ops) op := by simp [abRun]
    rw [e]
    generalize abRun P ops = s at ih
    cases op with
    | reset p => simp [abStep, abReset]
    | smooth pos allowed =>
      simp only [abStep]
      by_cases hnew : s.position.ts < pos.ts
      · obtain ⟨h1, h2⟩ := abSmooth_newer P allowed s pos hnew (gain_lt _ _ _)
        by_cases hr : TakenRaw P allowed s pos (abGain P s pos)
        · rw [h1 hr]; norm_num
        · obtain ⟨out, e, -⟩ := h2 hr
          rw [e]
          have : ¬ 4 < Real.sqrt ((correctedSpeed s pos (abGain P s pos)).x ^ 2 +
              (correctedSpeed s pos (abGain P s pos)).y ^ 2) :=
            fun h => hr (Or.inr (Or.inr (Or.inl ⟨hP, h⟩)))
          exact (Real.sqrt_le_left (by norm_num)).mp (not_lt.mp this)
      · rw [C41_not_newer P allowed s pos (not_lt.mp hnew)]; exact ih

/-- A second measurement that is smoothed: state at the origin, one second later at (1, 0). -/
example : ¬ TakenRaw (abParams {}) (fun _ _ => True) ⟨true, 0, 0, ⟨0, 0, "1", 1, 0, false, .INDOOR, 0⟩⟩
    ⟨1, 0, "1", 1, 1000, false, .INDOOR, 0⟩ (1 / 2) ∧
    abGain (abParams {}) ⟨true, 0, 0, ⟨0, 0, "1", 1, 0, false, .INDOOR, 0⟩⟩
      ⟨1, 0, "1", 1, 1000, false, .INDOOR, 0⟩ = 1 / 2 := by
  constructor
  · unfold TakenRaw elapsed correctedSpeed prediction elapsed
    norm_num [abParams]
    have h6 : Real.sqrt (36 : ℝ) = 6 := by
      rw [show (36 : ℝ) = 6 ^ 2 by norm_num]; exact Real.sqrt_sq (by norm_num)
    rw [h6]; norm_num
  · rw [C41_gain_setting {} rfl (by norm_num) (by norm_num)]; norm_num

/-! ## C42: convergence -/

/-- The measurements of a stationary target at `(x, y)` with a constant period of `T` milliseconds: the
`n`-th one comes `T * (n + 1)` after the position of the state; everything else may vary. -/
structure Stationary (t0 T : Int) (x y : ℝ) (pos : ℕ → Position) : Prop where
  x : ∀ n, (pos n).x = x
  y : ∀ n, (pos n).y = y
  ts : ∀ n, (pos n).ts = t0 + T * (n + 1)

/-- The object after the first `n` measurements. -/
noncomputable def abIterate (P : AbParams) (allowed : ℕ → ℝ → ℝ → Prop) (s : AbState) (pos : ℕ → Position) :
    ℕ → AbState
  | 0 => s
  | n + 1 => (abSmooth P (allowed n) (abIterate P allowed s pos n) (pos n)).2

/-- A quadratic form contracted by one filter step (the determinant of the state and its successor). -/
noncomputable def energy (a e w : ℝ) : ℝ := a ^ 2 / (2 - a) * e ^ 2 - 2 * a * (1 - a) / (2 - a) * e * w + (1 - a) * w ^ 2

theorem energy_step {a : ℝ} (h1 : a < 2) (e w : ℝ) :
    energy a ((1 - a) * (e + w)) (w - a ^ 2 / (2 - a) * (e + w)) = (1 - a) * energy a e w := by
  unfold energy
  have : 2 - a ≠ 0 := by linarith
  field_simp
  ring

theorem energy_bound {a : ℝ} (h0 : 0 < a) (h1 : a < 1) (e w : ℝ) :
    e ^ 2 ≤ ((2 - a) / a) ^ 2 * energy a e w := by
  have h2 : (0 : ℝ) < 2 - a := by linarith
  have key : ((2 - a) / a) ^ 2 * energy a e w = e ^ 2 + (1 - a) * ((2 - a) / a * w - e) ^ 2 := by
    unfold energy
    field_simp
    ring
  rw [key]
  have : 0 ≤ (1 - a) * ((2 - a) / a * w - e) ^ 2 := mul_nonneg (by linarith) (sq_nonneg _)
  linarith

theorem energy_nonneg {a : ℝ} (h0 : 0 < a) (h1 : a < 1) (e w : ℝ) : 0 ≤ energy a e w := by
  have := energy_bound h0 h1 e w
  have h2 := sq_nonneg e
  have h3 : 0 < ((2 - a) / a) ^ 2 := by
    have : 0 < (2 - a) / a := div_pos (by linarith) h0
    positivity
  by_contra hneg
  have := mul_neg_of_pos_of_neg h3 (not_le.mp hneg)
  linarith

/-- One step in the coordinates error and speed times period. -/
theorem converge_step (P : AbParams) (hacc : P.useAccuracyForSmoothing = false)
    (h0 : 1 / 10 ≤ P.alpha) (h1 : P.alpha ≤ 9 / 10) (allowed : ℝ → ℝ → Prop) (s : AbState) (pos : Position)
    (T : Int) (hT : 0 < T) (hts : pos.ts = s.position.ts + T) :
    let t : ℝ := (T : ℝ) / 1000
    let s' := (abSmooth P allowed s pos).2
    s'.position.ts = pos.ts ∧
    energy P.alpha (s'.position.x - pos.x) (s'.speedX * t) ≤
      (1 - P.alpha) * energy P.alpha (s.position.x - pos.x) (s.speedX * t) ∧
    energy P.alpha (s'.position.y - pos.y) (s'.speedY * t) ≤
      (1 - P.alpha) * energy P.alpha (s.position.y - pos.y) (s.speedY * t) := by
  intro t s'
  have ha0 : 0 < P.alpha := by linarith
  have ha1 : P.alpha < 1 := by linarith
  have hnew : s.position.ts < pos.ts := by omega
  have hgain : abGain P s pos = P.alpha := by unfold abGain; simp [hacc]
  obtain ⟨g1, g2⟩ := abSmooth_newer P allowed s pos hnew (by rw [hgain]; linarith)
  rw [hgain] at g1 g2
  have hel : elapsed s pos = t := by
    unfold elapsed; rw [hts]; simp [t]
  have ht : t ≠ 0 := by
    have : (0 : ℝ) < (T : ℝ) := by exact_mod_cast hT
    exact (div_pos this (by norm_num)).ne'
  by_cases hr : TakenRaw P allowed s pos P.alpha
  · have e : s' = ⟨true, 0, 0, pos⟩ := by simp only [s', g1 hr]
    rw [e]
    refine ⟨rfl, ?_, ?_⟩
    · have : energy P.alpha (pos.x - pos.x) (0 * t) = 0 := by unfold energy; ring
      rw [this]
      exact mul_nonneg (by linarith) (energy_nonneg ha0 ha1 _ _)
    · have : energy P.alpha (pos.y - pos.y) (0 * t) = 0 := by unfold energy; ring
      rw [this]
      exact mul_nonneg (by linarith) (energy_nonneg ha0 ha1 _ _)
  · obtain ⟨out, e, o1, -, o3, -⟩ := g2 hr
    have e' : s' = ⟨s.wasCalled, (correctedSpeed s pos P.alpha).x, (correctedSpeed s pos P.alpha).y, out⟩ := by
      simp only [s', e]
    rw [e']
    have ox : out.x = (between (prediction s pos) pos.toXY P.alpha).x := by rw [← o1]; rfl
    have oy : out.y = (between (prediction s pos) pos.toXY P.alpha).y := by rw [← o1]; rfl
    have h2 : 2 - P.alpha ≠ 0 := by linarith
    refine ⟨o3, ?_, ?_⟩
    · rw [← energy_step (by linarith : P.alpha < 2)]
      apply le_of_eq
      dsimp only
      congr 1
      · rw [ox]; unfold between prediction Position.toXY; rw [hel]; dsimp only; ring
      · unfold correctedSpeed prediction; rw [hel]; dsimp only; field_simp; ring
    · rw [← energy_step (by linarith : P.alpha < 2)]
      apply le_of_eq
      dsimp only
      congr 1
      · rw [oy]; unfold between prediction Position.toXY; rw [hel]; dsimp only; ring
      · unfold correctedSpeed prediction; rw [hel]; dsimp only; field_simp; ring

/-- **C42.** Without the accuracy dependent gain the squared error of the smoothed position shrinks at
least geometrically, with the ratio `1 - α`, from any state, for any constant period and whatever the
speed constraint and the barriers do. -/
theorem C42_rate (P : AbParams) (hacc : P.useAccuracyForSmoothing = false)
    (h0 : 1 / 10 ≤ P.alpha) (h1 : P.alpha ≤ 9 / 10) (allowed : ℕ → ℝ → ℝ → Prop) (s : AbState)
    (T : Int) (hT : 0 < T) (x y : ℝ) (pos : ℕ → Position) (hpos : Stationary s.position.ts T x y pos) :
    ∃ C, ∀ n, ((abIterate P allowed s pos n).position.x - x) ^ 2 ≤ C * (1 - P.alpha) ^ n ∧
      ((abIterate P allowed s pos n).position.y - y) ^ 2 ≤ C * (1 - P.alpha) ^ n := by
  have ha0 : 0 < P.alpha := by linarith
  have ha1 : P.alpha < 1 := by linarith
  set t : ℝ := (T : ℝ) / 1000
  set K := ((2 - P.alpha) / P.alpha) ^ 2 with hK
  set Ex := energy P.alpha (s.position.x - x) (s.speedX * t)
  set Ey := energy P.alpha (s.position.y - y) (s.speedY * t)
  have hEx : 0 ≤ Ex := energy_nonneg ha0 ha1 _ _
  have hEy : 0 ≤ Ey := energy_nonneg ha0 ha1 _ _
  have inv : ∀ n, (abIterate P allowed s pos n).position.ts = s.position.ts + T * n ∧
      energy P.alpha ((abIterate P allowed s pos n).position.x - x)
        ((abIterate P allowed s pos n).speedX * t) ≤ (1 - P.alpha) ^ n * Ex ∧
      energy P.alpha ((abIterate P allowed s pos n).position.y - y)
        ((abIterate P allowed s pos n).speedY * t) ≤ (1 - P.alpha) ^ n * Ey := by
    intro n
    induction n with
    | zero => exact ⟨by simp [abIterate], by simp [abIterate, Ex], by simp [abIterate, Ey]⟩
    | succ n ih =>
      obtain ⟨i1, i2, i3⟩ := ih
      obtain ⟨c1, c2, c3⟩ := converge_step P hacc h0 h1 (allowed n) (abIterate P allowed s pos n) (pos n) T hT
        (by rw [i1, hpos.ts n]; ring)
      rw [hpos.x n] at c2
      rw [hpos.y n] at c3
      refine ⟨?_, ?_, ?_⟩
      · show (abSmooth P (allowed n) (abIterate P allowed s pos n) (pos n)).2.position.ts = _
        rw [c1, hpos.ts n]; push_cast; ring
      · refine c2.trans ?_
        rw [pow_succ, mul_comm ((1 - P.alpha) ^ n), mul_assoc]
        exact mul_le_mul_of_nonneg_left i2 (by linarith)
      · refine c3.trans ?_
        rw [pow_succ, mul_comm ((1 - P.alpha) ^ n), mul_assoc]
        exact mul_le_mul_of_nonneg_left i3 (by linarith)
  have hK0 : 0 ≤ K := sq_nonneg _
  refine ⟨K * (Ex + Ey), fun n => ?_⟩
  obtain ⟨-, i2, i3⟩ := inv n
  have hp : 0 ≤ (1 - P.alpha) ^ n := pow_nonneg (by linarith) n
  constructor
  · calc _ ≤ K * energy P.alpha _ ((abIterate P allowed s pos n).speedX * t) := energy_bound ha0 ha1 _ _
      _ ≤ K * ((1 - P.alpha) ^ n * Ex) := mul_le_mul_of_nonneg_left i2 hK0
      _ ≤ K * ((1 - P.alpha) ^ n * (Ex + Ey)) :=
        mul_le_mul_of_nonneg_left (mul_le_mul_of_nonneg_left (by linarith) hp) hK0
      _ = K * (Ex + Ey) * (1 - P.alpha) ^ n := by ring
  · calc _ ≤ K * energy P.alpha _ ((abIterate P allowed s pos n).speedY * t) := energy_bound ha0 ha1 _ _
      _ ≤ K * ((1 - P.alpha) ^ n * Ey) := mul_le_mul_of_nonneg_left i3 hK0
      _ ≤ K * ((1 - P.alpha) ^ n * (Ex + Ey)) :=
        mul_le_mul_of_nonneg_left (mul_le_mul_of_nonneg_left (by linarith) hp) hK0
      _ = K * (Ex + Ey) * (1 - P.alpha) ^ n := by ring

/-- **C42.** The positions returned for a stationary target converge to it, from any state and with any
settings that do not make the gain depend on the accuracy. -/
theorem C42_converges (cs : CommonSettings) (hacc : cs.useAccuracyForSmoothing = false)
    (allowed : ℕ → ℝ → ℝ → Prop) (s : AbState) (T : Int) (hT : 0 < T) (x y : ℝ) (pos : ℕ → Position)
    (hpos : Stationary s.position.ts T x y pos) :
    Filter.Tendsto (fun n => (abSmooth (abParams cs) (allowed n)
      (abIterate (abParams cs) allowed s pos n) (pos n)).1.x) Filter.atTop (nhds x) ∧
    Filter.Tendsto (fun n => (abSmooth (abParams cs) (allowed n)
      (abIterate (abParams cs) allowed s pos n) (pos n)).1.y) Filter.atTop (nhds y) := by
  have hP : (abParams cs).useAccuracyForSmoothing = false := hacc
  have hg := C41_gain cs s s.position
  have hgain : abGain (abParams cs) s s.position = (abParams cs).alpha := by unfold abGain; simp [hP]
  rw [hgain] at hg
  obtain ⟨C, hC⟩ := C42_rate (abParams cs) hP hg.1 hg.2 allowed s T hT x y pos hpos
  have hout : ∀ n, (abSmooth (abParams cs) (allowed n) (abIterate (abParams cs) allowed s pos n) (pos n)).1 =
      (abIterate (abParams cs) allowed s pos (n + 1)).position := by
    intro n; exact (C41_state _ _ _ _).1.symm
  have hlim : Filter.Tendsto (fun n : ℕ => C * (1 - (abParams cs).alpha) ^ (n + 1)) Filter.atTop (nhds 0) := by
    have := (tendsto_pow_atTop_nhds_zero_of_lt_one (r := 1 - (abParams cs).alpha)
      (by linarith [hg.2]) (by linarith [hg.1])).const_mul C
    rw [mul_zero] at this
    exact (Filter.tendsto_add_atTop_iff_nat 1).mpr this
  have conv : ∀ (f : ℕ → ℝ) (c : ℝ), (∀ n, (f n - c) ^ 2 ≤ C * (1 - (abParams cs).alpha) ^ (n + 1)) →
      Filter.Tendsto f Filter.atTop (nhds c) := by
    intro f c hf
    have hsq : Filter.Tendsto (fun n => (f n - c) ^ 2) Filter.atTop (nhds 0) :=
      squeeze_zero (fun n => sq_nonneg _) hf hlim
    have habs : Filter.Tendsto (fun n => |f n - c|) Filter.atTop (nhds 0) := by
      have := (Real.continuous_sqrt.tendsto 0).comp hsq
      rw [Real.sqrt_zero] at this
      refine this.congr (fun n => ?_)
      simp [Real.sqrt_sq_eq_abs]
    exact tendsto_sub_nhds_zero_iff.mp ((tendsto_zero_iff_abs_tendsto_zero _).mpr habs)
  simp only [hout]
  exact ⟨conv _ x (fun n => (hC (n + 1)).1), conv _ y (fun n => (hC (n + 1)).2)⟩

/-- A moving state and a stationary target sampled every second. -/
example : Stationary 0 1000 5 6 (fun n => ⟨5, 6, "1", 1, 0 + 1000 * ((n : Int) + 1), false, .INDOOR, 0⟩) :=
  ⟨fun _ => rfl, fun _ => rfl, fun _ => rfl⟩

end Verif.Smooth
