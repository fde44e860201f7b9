import Verif.Smooth.IrregularProps

/-!
# C157: how far the smoothed place can be from the measured one
-/

namespace Verif.Smooth

open Verif.Geo (XYPoint)

/-- The distance of two positions on a floor. -/
noncomputable def apart (p q : Position) : ℝ := Real.sqrt ((p.x - q.x) ^ 2 + (p.y - q.y) ^ 2)

/-- **C157.** With the speed constraint, after any history, the smoothed position is from the measurement at most eight metres a second times
the time since the last position times `(1 - a) (2 - a) / a²`, where `a` is the gain in use. -/
theorem C157_bounded (cs : CommonSettings) (hP : cs.useSpeedConstraint = true) (ops : List AbOp) (allowed : ℝ → ℝ → Prop) (pos : Position)
    (hnew : (abRun (abParams cs) ops).position.ts < pos.ts) :
    let s := abRun (abParams cs) ops
    let a := abGain (abParams cs) s pos
    apart (abSmooth (abParams cs) allowed s pos).1 pos ≤ 8 * ((1 - a) * (2 - a) / a ^ 2) * elapsed s pos := by
  intro s a
  obtain ⟨a0, a1⟩ := C41_gain cs s pos
  have ha0 : 1 / 10 ≤ a := a0
  have ha1 : a ≤ 9 / 10 := a1
  have ht : 0 < elapsed s pos := by
    unfold elapsed
    have : (0 : ℝ) < ((pos.ts - s.position.ts : Int) : ℝ) := by exact_mod_cast sub_pos.mpr hnew
    positivity
  have hb : 0 ≤ 8 * ((1 - a) * (2 - a) / a ^ 2) * elapsed s pos := by
    have : 0 ≤ (1 - a) * (2 - a) := mul_nonneg (by linarith) (by linarith)
    positivity
  have hv := C41_speed cs hP ops
  obtain ⟨h1, h2⟩ := abSmooth_newer (abParams cs) allowed s pos hnew (gain_lt _ _ _)
  by_cases hr : TakenRaw (abParams cs) allowed s pos a
  · rw [h1 hr]
    unfold apart
    simpa using hb
  · obtain ⟨out, e, o1, -⟩ := h2 hr
    have hv' : (correctedSpeed s pos a).x ^ 2 + (correctedSpeed s pos a).y ^ 2 ≤ 4 ^ 2 := by
      have : ¬ 4 < Real.sqrt ((correctedSpeed s pos a).x ^ 2 + (correctedSpeed s pos a).y ^ 2) :=
        fun h => hr (Or.inr (Or.inr (Or.inl ⟨hP, h⟩)))
      exact (Real.sqrt_le_left (by norm_num)).mp (not_lt.mp this)
    rw [e]
    unfold apart
    dsimp only
    have ox : out.x = (between (prediction s pos) pos.toXY a).x := congrArg (·.x) o1
    have oy : out.y = (between (prediction s pos) pos.toXY a).y := congrArg (·.y) o1
    rw [Real.sqrt_le_left hb, ox, oy]
    unfold between
    dsimp only [Position.toXY]
    set t := elapsed s pos with htt
    set dx := pos.x - (prediction s pos).x with hdx
    set dy := pos.y - (prediction s pos).y with hdy
    have hcx : (correctedSpeed s pos a).x = s.speedX + a ^ 2 / (2 - a) * (dx / t) := rfl
    have hcy : (correctedSpeed s pos a).y = s.speedY + a ^ 2 / (2 - a) * (dy / t) := rfl
    rw [hcx, hcy] at hv'
    set k := a ^ 2 / (2 - a) with hk
    have hk0 : 0 < k := div_pos (by positivity) (by linarith)
    have hd : (k * (dx / t)) ^ 2 + (k * (dy / t)) ^ 2 ≤ 8 ^ 2 := by
      have hv0 : s.speedX ^ 2 + s.speedY ^ 2 ≤ 4 ^ 2 := hv
      nlinarith [sq_nonneg (2 * s.speedX + k * (dx / t)), sq_nonneg (2 * s.speedY + k * (dy / t))]
    have e1 : ((prediction s pos).x + a * dx - pos.x) ^ 2 + ((prediction s pos).y + a * dy - pos.y) ^ 2 =
        ((1 - a) * (t / k)) ^ 2 * ((k * (dx / t)) ^ 2 + (k * (dy / t)) ^ 2) := by
      have f1 : (prediction s pos).x + a * dx - pos.x = -((1 - a) * dx) := by rw [hdx]; ring
      have f2 : (prediction s pos).y + a * dy - pos.y = -((1 - a) * dy) := by rw [hdy]; ring
      rw [f1, f2]
      clear_value k dx dy
      field_simp
    rw [e1]
    have e2 : 8 * ((1 - a) * (2 - a) / a ^ 2) * t = (1 - a) * (t / k) * 8 := by
      rw [hk]
      have : (2 : ℝ) - a ≠ 0 := by linarith
      have : a ≠ 0 := by linarith
      field_simp
    rw [e2, mul_pow _ (8 : ℝ)]
    exact mul_le_mul_of_nonneg_left hd (sq_nonneg _)

/-- **C157.** Whatever the settings besides, this is at most 1368 metres for a second; with the default smoothing 24 metres. -/
theorem C157_metres (cs : CommonSettings) (hP : cs.useSpeedConstraint = true) (ops : List AbOp) (allowed : ℝ → ℝ → Prop) (pos : Position)
    (hnew : (abRun (abParams cs) ops).position.ts < pos.ts) :
    let s := abRun (abParams cs) ops
    apart (abSmooth (abParams cs) allowed s pos).1 pos ≤ 1368 * elapsed s pos ∧
    (cs.useAccuracyForSmoothing = false → cs.smoothing = 1 / 2 → apart (abSmooth (abParams cs) allowed s pos).1 pos ≤ 24 * elapsed s pos) ∧
    (10 < elapsed s pos → apart (abSmooth (abParams cs) allowed s pos).1 pos = 0) := by
  intro s
  have hb := C157_bounded cs hP ops allowed pos hnew
  dsimp only at hb
  have ht : 0 < elapsed s pos := by
    unfold elapsed
    have : (0 : ℝ) < ((pos.ts - s.position.ts : Int) : ℝ) := by exact_mod_cast sub_pos.mpr hnew
    positivity
  refine ⟨?_, fun h1 h2 => ?_, fun h => ?_⟩
  · refine hb.trans (mul_le_mul_of_nonneg_right ?_ ht.le)
    obtain ⟨a0, a1⟩ := C41_gain cs s pos
    set a := abGain (abParams cs) s pos with ha
    have q1 : (1 - a) * (2 - a) ≤ 9 / 10 * (19 / 10) := mul_le_mul (by linarith) (by linarith) (by linarith) (by norm_num)
    have q2 : (1 / 10 : ℝ) ^ 2 ≤ a ^ 2 := pow_le_pow_left₀ (by norm_num) a0 2
    have : (1 - a) * (2 - a) / a ^ 2 ≤ 171 := by
      rw [div_le_iff₀ (by positivity)]
      linarith
    linarith
  · refine hb.trans (le_of_eq ?_)
    rw [C41_gain_setting cs h1 (by rw [h2]; norm_num) (by rw [h2]; norm_num), h2]
    show _ * elapsed s pos = _
    norm_num
  · have := (abSmooth_newer (abParams cs) allowed s pos hnew (gain_lt _ _ _)).1 (.inr (.inl h))
    rw [this]
    unfold apart
    simp

/-- A measurement at `(x, 0)`. -/
noncomputable def onAxis (x : ℝ) (ts : Int) : Position := ⟨x, 0, "1", 1, ts, false, .INDOOR, 0⟩

/-- **C157, the bound is reached.** Default settings, measurements at 0, -24 and 32 metres, one a second: the last smoothed position
is 24 metres from the measurement. -/
theorem C157_sharp (allowed : ℝ → ℝ → Prop) (hall : ∀ x y, allowed x y) :
    let P := abParams {}
    let s := abRun P [.smooth (onAxis 0 1000) allowed, .smooth (onAxis (-24) 2000) allowed]
    elapsed s (onAxis 32 3000) = 1 ∧ apart (abSmooth P allowed s (onAxis 32 3000)).1 (onAxis 32 3000) = 24 := by
  intro P s
  have hg : ∀ s pos, abGain P s pos = 1 / 2 := by
    intro s pos
    rw [C41_gain_setting {} rfl (by norm_num) (by norm_num)]
    norm_num
  have hlt : ∀ s pos, abGain P s pos < 2 := by intro s pos; rw [hg]; norm_num
  have s1 : abStep P abInit (.smooth (onAxis 0 1000) allowed) = ⟨true, 0, 0, onAxis 0 1000⟩ := by
    have := (abSmooth_newer P allowed abInit (onAxis 0 1000) (by simp [abInit, Position.default, onAxis]) (hlt _ _)).1 (.inl rfl)
    unfold abStep
    dsimp only
    rw [this]
  have s2 : abStep P ⟨true, 0, 0, onAxis 0 1000⟩ (.smooth (onAxis (-24) 2000) allowed) = ⟨true, -4, 0, onAxis (-12) 2000⟩ := by
    set q : AbState := ⟨true, 0, 0, onAxis 0 1000⟩ with hq
    have he : elapsed q (onAxis (-24) 2000) = 1 := by simp [elapsed, hq, onAxis]
    have hp : prediction q (onAxis (-24) 2000) = ⟨0, 0⟩ := by unfold prediction; rw [he]; simp [hq, onAxis]
    have hc : correctedSpeed q (onAxis (-24) 2000) (1 / 2) = ⟨-4, 0⟩ := by
      unfold correctedSpeed; rw [hp, he]; simp [hq, onAxis]; norm_num
    have hr : ¬ TakenRaw P allowed q (onAxis (-24) 2000) (1 / 2) := by
      unfold TakenRaw
      rw [he, hc]
      rintro (h | h | ⟨-, h⟩ | ⟨-, h⟩)
      · cases h
      · norm_num at h
      · rw [Real.lt_sqrt (by norm_num)] at h; norm_num at h
      · exact h (hall _ _)
    obtain ⟨out, e, o1, o2, o3, o4, o5, o6, o7, -⟩ := (abSmooth_newer P allowed q (onAxis (-24) 2000) (by simp [hq, onAxis]) (hlt _ _)).2
      (by rw [hg]; exact hr)
    rw [hg, hp] at o1
    rw [hg, hc] at e
    have hout : out = onAxis (-12) 2000 := by
      obtain ⟨x, y, l, d, ts, em, pr, hd⟩ := out
      have x1 : x = -12 := by
        have := congrArg (·.x) o1
        simp only [Position.toXY, between, onAxis] at this
        rw [this]; norm_num
      have y1 : y = 0 := by
        have := congrArg (·.y) o1
        simp only [Position.toXY, between, onAxis] at this
        rw [this]; norm_num
      have o7' := o7 rfl
      dsimp only [onAxis] at *
      rw [x1, y1, o2, o3, o4, o5, o6, o7']
    unfold abStep
    dsimp only
    rw [e, hout]
  have hs : s = ⟨true, -4, 0, onAxis (-12) 2000⟩ := by
    show abRun P _ = _
    unfold abRun
    rw [List.foldl_cons, List.foldl_cons, List.foldl_nil, s1, s2]
  rw [hs]
  set q : AbState := ⟨true, -4, 0, onAxis (-12) 2000⟩ with hq
  have he : elapsed q (onAxis 32 3000) = 1 := by simp [elapsed, hq, onAxis]
  refine ⟨he, ?_⟩
  have hp : prediction q (onAxis 32 3000) = ⟨-16, 0⟩ := by unfold prediction; rw [he]; simp [hq, onAxis]; norm_num
  have hc : correctedSpeed q (onAxis 32 3000) (1 / 2) = ⟨4, 0⟩ := by
    unfold correctedSpeed; rw [hp, he]; simp [hq, onAxis]; norm_num
  have hr : ¬ TakenRaw P allowed q (onAxis 32 3000) (1 / 2) := by
    unfold TakenRaw
    rw [he, hc]
    rintro (h | h | ⟨-, h⟩ | ⟨-, h⟩)
    · cases h
    · norm_num at h
    · rw [Real.lt_sqrt (by norm_num)] at h; norm_num at h
    · exact h (hall _ _)
  obtain ⟨out, e, o1, -⟩ := (abSmooth_newer P allowed q (onAxis 32 3000) (by simp [hq, onAxis]) (hlt _ _)).2 (by rw [hg]; exact hr)
  rw [hg, hp] at o1
  rw [e]
  have x1 : out.x = 8 := by
    have := congrArg (·.x) o1
    simp only [Position.toXY, between, onAxis] at this
    rw [this]; norm_num
  have y1 : out.y = 0 := by
    have := congrArg (·.y) o1
    simp only [Position.toXY, between, onAxis] at this
    rw [this]; norm_num
  unfold apart
  dsimp only
  rw [x1, y1]
  simp only [onAxis]
  rw [show ((8 : ℝ) - 32) ^ 2 + (0 - 0) ^ 2 = 24 ^ 2 by norm_num, Real.sqrt_sq (by norm_num)]

/-! ## Weighting by the accuracy -/

/-- A device at rest at `(x, y)`, measured exactly once a second, with stated accuracies of 1, 10, 100 and 1000 metres in turn. -/
structure Moody (t0 : Int) (x y : ℝ) (pos : ℕ → Position) : Prop where
  x : ∀ n, (pos n).x = x
  y : ∀ n, (pos n).y = y
  ts : ∀ n, (pos n).ts = t0 + 1000 * (n + 1)
  dev : ∀ n, (pos n).deviationM = if n % 4 = 0 then 1 else if n % 4 = 1 then 10 else if n % 4 = 2 then 100 else 1000

/-- The state is exact in `y`, off by `e` in `x` and moves with the speed `v` along `x`. -/
structure OffBy (x y e v : ℝ) (ts : Int) (s : AbState) : Prop where
  called : s.wasCalled = true
  ts : s.position.ts = ts
  x : s.position.x = x + e
  y : s.position.y = y
  speedX : s.speedX = v
  speedY : s.speedY = 0

/-- One step with the gain `a`. -/
theorem off_step (P : AbParams) (hacc : P.useAccuracyForSmoothing = true) (allowed : ℝ → ℝ → Prop) (hall : ∀ x y, allowed x y)
    {x y e v a : ℝ} {ts : Int} {s : AbState} (hs : OffBy x y e v ts s) {pos : Position} (hx : pos.x = x) (hy : pos.y = y)
    (hts : pos.ts = ts + 1000) (hg : abGain P s pos = a) (ha : a < 2) (hv : |v - a ^ 2 / (2 - a) * (e + v)| ≤ 4) :
    OffBy x y ((1 - a) * (e + v)) (v - a ^ 2 / (2 - a) * (e + v)) (ts + 1000) (abSmooth P allowed s pos).2 ∧
      (abSmooth P allowed s pos).2.position.deviationM = pos.deviationM + (1 - a) * |v - a ^ 2 / (2 - a) * (e + v)| := by
  have hnew : s.position.ts < pos.ts := by rw [hs.ts, hts]; omega
  have hel : elapsed s pos = 1 := by
    unfold elapsed
    rw [hs.ts, hts]
    push_cast
    ring
  have hcx : (correctedSpeed s pos a).x = v - a ^ 2 / (2 - a) * (e + v) := by
    unfold correctedSpeed prediction
    dsimp only
    rw [hel, hs.x, hs.speedX, hx]
    ring
  have hcy : (correctedSpeed s pos a).y = 0 := by
    unfold correctedSpeed prediction
    dsimp only
    rw [hs.y, hs.speedY, hy]
    simp
  have hsq : Real.sqrt ((correctedSpeed s pos a).x ^ 2 + (correctedSpeed s pos a).y ^ 2) = |v - a ^ 2 / (2 - a) * (e + v)| := by
    rw [hcx, hcy, show (0 : ℝ) ^ 2 = 0 by norm_num, add_zero, Real.sqrt_sq_eq_abs]
  have hraw : ¬ TakenRaw P allowed s pos (abGain P s pos) := by
    rw [hg]
    rintro (h | h | ⟨-, h⟩ | ⟨-, h⟩)
    · rw [hs.called] at h; exact Bool.noConfusion h
    · rw [hel] at h; norm_num at h
    · rw [hsq] at h; exact absurd hv (not_le.mpr h)
    · exact h (hall _ _)
  obtain ⟨out, e1, o1, -, o3, -, -, -, -, o8⟩ := (abSmooth_newer P allowed s pos hnew (by rw [hg]; exact ha)).2 hraw
  rw [hg] at e1 o1 o8
  rw [e1]
  refine ⟨⟨hs.called, by rw [← hts]; exact o3, ?_, ?_, hcx, hcy⟩, ?_⟩
  · have := congrArg (·.x) o1
    simp only [Position.toXY, between, prediction] at this
    rw [hel, hs.x, hs.speedX, hx] at this
    show out.x = _
    rw [this]
    ring
  · have := congrArg (·.y) o1
    simp only [Position.toXY, between, prediction] at this
    rw [hs.y, hs.speedY, hy] at this
    show out.y = _
    rw [this]
    ring
  · rw [o8 hacc, hsq, hel, one_mul]

theorem gain_low (P : AbParams) (hacc : P.useAccuracyForSmoothing = true) {s : AbState} {pos : Position} (h0 : 0 ≤ s.position.deviationM)
    (h1 : 0 ≤ pos.deviationM) (h : 9 * s.position.deviationM ≤ pos.deviationM + 1 / 2) : abGain P s pos = 1 / 10 := by
  unfold abGain MIN_ALPHA MAX_ALPHA
  rw [if_pos hacc, divide_eq (by positivity)]
  have : s.position.deviationM / (pos.deviationM + s.position.deviationM + 1 / 2) ≤ 1 / 10 := by
    rw [div_le_iff₀ (by positivity)]; linarith
  rw [max_eq_left this, min_eq_left (by norm_num)]

theorem gain_high (P : AbParams) (hacc : P.useAccuracyForSmoothing = true) {s : AbState} {pos : Position} (h0 : 0 ≤ s.position.deviationM)
    (h1 : 0 ≤ pos.deviationM) (h : 9 * (pos.deviationM + 1 / 2) ≤ s.position.deviationM) : abGain P s pos = 9 / 10 := by
  unfold abGain MIN_ALPHA MAX_ALPHA
  rw [if_pos hacc, divide_eq (by positivity)]
  have : 9 / 10 ≤ s.position.deviationM / (pos.deviationM + s.position.deviationM + 1 / 2) := by
    rw [le_div_iff₀ (by positivity)]; linarith
  rw [max_eq_right (by linarith), min_eq_right this]

set_option maxHeartbeats 1000000 in
/-- Four measurements: the error grows by a third at least. -/
theorem moody_round (P : AbParams) (hacc : P.useAccuracyForSmoothing = true) (allowed : ℕ → ℝ → ℝ → Prop) (hall : ∀ k x y, allowed k x y)
    {x y t : ℝ} {t0 : Int} {s0 : AbState} {pos : ℕ → Position} (hp : Moody t0 x y pos) (n : ℕ) {e v : ℝ}
    (hs : OffBy x y e v (t0 + 1000 * (4 * n : ℕ)) (abIterate P allowed s0 pos (4 * n)))
    (hd : 20 ≤ (abIterate P allowed s0 pos (4 * n)).position.deviationM) (he : |e| ≤ 1) (hv : v = t * e) (ht0 : 0 ≤ t) (ht1 : t ≤ 1 / 2) :
    ∃ e' t', 0 ≤ t' ∧ t' ≤ 1 / 2 ∧ 4 / 3 * |e| ≤ |e'| ∧
      OffBy x y e' (t' * e') (t0 + 1000 * (4 * (n + 1) : ℕ)) (abIterate P allowed s0 pos (4 * (n + 1))) ∧
      20 ≤ (abIterate P allowed s0 pos (4 * (n + 1))).position.deviationM := by
  rw [show 4 * (n + 1) = 4 * n + 3 + 1 by ring]
  have m0 : (4 * n) % 4 = 0 := by omega
  have m1 : (4 * n + 1) % 4 = 1 := by omega
  have m2 : (4 * n + 2) % 4 = 2 := by omega
  have m3 : (4 * n + 3) % 4 = 3 := by omega
  have d0 : (pos (4 * n)).deviationM = 1 := by rw [hp.dev, if_pos m0]
  have d1 : (pos (4 * n + 1)).deviationM = 10 := by rw [hp.dev, m1]; norm_num
  have d2 : (pos (4 * n + 2)).deviationM = 100 := by rw [hp.dev, m2]; norm_num
  have d3 : (pos (4 * n + 3)).deviationM = 1000 := by rw [hp.dev, m3]; norm_num
  have ae := abs_nonneg e
  have bound : ∀ k : ℝ, |k| ≤ 1 → |k * e| ≤ 1 := fun k hk => by
    rw [abs_mul]
    calc |k| * |e| ≤ 1 * 1 := mul_le_mul hk he ae (by norm_num)
      _ = 1 := one_mul 1
  -- the first measurement, gain nine tenths
  have g0 := gain_high P hacc (s := abIterate P allowed s0 pos (4 * n)) (pos := pos (4 * n)) (by linarith) (by rw [d0]; norm_num) (by rw [d0]; linarith)
  set v1 := (-81 / 110 + 29 / 110 * t) * e with hv1
  have b1 : |v1| ≤ 1 := bound _ (by rw [abs_le]; constructor <;> linarith)
  have r1 : v - (9 / 10) ^ 2 / (2 - 9 / 10) * (e + v) = v1 := by rw [hv, hv1]; ring
  obtain ⟨o1, D1⟩ := off_step P hacc (allowed (4 * n)) (hall _) hs (hp.x _) (hp.y _) (by rw [hp.ts]; push_cast; ring) g0 (by norm_num)
    (by rw [r1]; linarith)
  rw [r1, d0] at D1
  rw [r1] at o1
  set e1 := (1 - 9 / 10) * (e + v) with he1
  change OffBy x y e1 v1 _ (abIterate P allowed s0 pos (4 * n + 1)) at o1
  change (abIterate P allowed s0 pos (4 * n + 1)).position.deviationM = _ at D1
  have E1 : e1 = (1 / 10 + 1 / 10 * t) * e := by rw [he1, hv]; ring
  -- the second measurement
  have g1 := gain_low P hacc (s := abIterate P allowed s0 pos (4 * n + 1)) (pos := pos (4 * n + 1)) (by rw [D1]; positivity)
    (by rw [d1]; norm_num) (by rw [D1, d1]; linarith)
  set v2 := v1 - (1 / 10) ^ 2 / (2 - 1 / 10) * (e1 + v1) with hv2
  have V2 : v2 = (-766 / 1045 + 547 / 2090 * t) * e := by rw [hv2, E1, hv1]; ring
  have b2 : |v2| ≤ 1 := by rw [V2]; exact bound _ (by rw [abs_le]; constructor <;> linarith)
  obtain ⟨o2, D2⟩ := off_step P hacc (allowed (4 * n + 1)) (hall _) o1 (hp.x _) (hp.y _) (by rw [hp.ts]; push_cast; ring) g1 (by norm_num)
    (by rw [← hv2]; linarith)
  rw [← hv2] at o2
  rw [← hv2, d1] at D2
  set e2 := (1 - 1 / 10) * (e1 + v1) with he2
  change OffBy x y e2 v2 _ (abIterate P allowed s0 pos (4 * n + 2)) at o2
  change (abIterate P allowed s0 pos (4 * n + 2)).position.deviationM = _ at D2
  have E2 : e2 = (-63 / 110 + 18 / 55 * t) * e := by rw [he2, E1, hv1]; ring
  -- the third
  have g2 := gain_low P hacc (s := abIterate P allowed s0 pos (4 * n + 2)) (pos := pos (4 * n + 2)) (by rw [D2]; positivity)
    (by rw [d2]; norm_num) (by rw [D2, d2]; linarith)
  set v3 := v2 - (1 / 10) ^ 2 / (2 - 1 / 10) * (e2 + v2) with hv3
  have V3 : v3 = (-288351 / 397100 + 102699 / 397100 * t) * e := by rw [hv3, E2, V2]; ring
  have b3 : |v3| ≤ 1 := by rw [V3]; exact bound _ (by rw [abs_le]; constructor <;> linarith)
  obtain ⟨o3, D3⟩ := off_step P hacc (allowed (4 * n + 2)) (hall _) o2 (hp.x _) (hp.y _) (by rw [hp.ts]; push_cast; ring) g2 (by norm_num)
    (by rw [← hv3]; linarith)
  rw [← hv3] at o3
  rw [← hv3, d2] at D3
  set e3 := (1 - 1 / 10) * (e2 + v2) with he3
  change OffBy x y e3 v3 _ (abIterate P allowed s0 pos (4 * n + 3)) at o3
  change (abIterate P allowed s0 pos (4 * n + 3)).position.deviationM = _ at D3
  have E3 : e3 = (-24561 / 20900 + 11079 / 20900 * t) * e := by rw [he3, E2, V2]; ring
  -- the fourth
  have g3 := gain_low P hacc (s := abIterate P allowed s0 pos (4 * n + 3)) (pos := pos (4 * n + 3)) (by rw [D3]; positivity)
    (by rw [d3]; norm_num) (by rw [D3, d3]; linarith)
  set v4 := v3 - (1 / 10) ^ 2 / (2 - 1 / 10) * (e3 + v3) with hv4
  have V4 : v4 = (-1350792 / 1886225 + 1919961 / 7544900 * t) * e := by rw [hv4, E3, V3]; ring
  have b4 : |v4| ≤ 1 := by rw [V4]; exact bound _ (by rw [abs_le]; constructor <;> linarith)
  obtain ⟨o4, D4⟩ := off_step P hacc (allowed (4 * n + 3)) (hall _) o3 (hp.x _) (hp.y _) (by rw [hp.ts]; push_cast; ring) g3 (by norm_num)
    (by rw [← hv4]; linarith)
  rw [← hv4] at o4
  rw [← hv4, d3] at D4
  set e4 := (1 - 1 / 10) * (e3 + v3) with he4
  change OffBy x y e4 v4 _ (abIterate P allowed s0 pos (4 * n + 3 + 1)) at o4
  change (abIterate P allowed s0 pos (4 * n + 3 + 1)).position.deviationM = _ at D4
  have E4 : e4 = (-679509 / 397100 + 14094 / 19855 * t) * e := by rw [he4, E3, V3]; ring
  have hneg : (-679509 / 397100 + 14094 / 19855 * t : ℝ) ≤ -(4 / 3) := by linarith
  refine ⟨e4, (-1350792 / 1886225 + 1919961 / 7544900 * t) / (-679509 / 397100 + 14094 / 19855 * t), ?_, ?_, ?_, ?_, ?_⟩
  · exact div_nonneg_of_nonpos (by linarith) (by linarith)
  · rw [div_le_iff_of_neg (by linarith)]
    linarith
  · rw [E4, abs_mul]
    refine mul_le_mul_of_nonneg_right ?_ ae
    rw [abs_of_neg (by linarith)]
    linarith
  · have : (-1350792 / 1886225 + 1919961 / 7544900 * t) / (-679509 / 397100 + 14094 / 19855 * t) * e4 = v4 := by
      rw [E4, V4]
      have : (-679509 / 397100 + 14094 / 19855 * t : ℝ) ≠ 0 := by linarith
      rw [← mul_assoc, div_mul_cancel₀ _ this]
    rw [this]
    have ht : t0 + 1000 * ((4 * n : ℕ) : Int) + 1000 + 1000 + 1000 + 1000 = t0 + 1000 * ((4 * n + 3 + 1 : ℕ) : Int) := by push_cast; ring
    rw [← ht]
    exact o4
  · rw [D4]
    have := abs_nonneg v4
    linarith

/-- **C157, weighting by the accuracy.** A device at rest is measured exactly, once a second, with stated accuracies of 1, 10, 100 and 1000
metres in turn. However small the first error is, the smoothed position is off by more than a metre later. -/
theorem C157_unsettled (P : AbParams) (hacc : P.useAccuracyForSmoothing = true) (allowed : ℕ → ℝ → ℝ → Prop) (hall : ∀ k x y, allowed k x y)
    {x y d : ℝ} {t0 : Int} {s0 : AbState} {pos : ℕ → Position} (hp : Moody t0 x y pos) (hs : OffBy x y d 0 t0 s0)
    (hdev : 20 ≤ s0.position.deviationM) (hd : d ≠ 0) :
    ∃ n, 1 < |(abIterate P allowed s0 pos n).position.x - x| := by
  by_contra hcon
  push Not at hcon
  have key : ∀ n : ℕ, ∃ e t, 0 ≤ t ∧ t ≤ 1 / 2 ∧ (4 / 3) ^ n * |d| ≤ |e| ∧
      OffBy x y e (t * e) (t0 + 1000 * (4 * n : ℕ)) (abIterate P allowed s0 pos (4 * n)) ∧
      20 ≤ (abIterate P allowed s0 pos (4 * n)).position.deviationM := by
    intro n
    induction n with
    | zero => exact ⟨d, 0, le_rfl, by norm_num, by simp, by simpa [abIterate] using hs, hdev⟩
    | succ n ih =>
      obtain ⟨e, t, h0, h1, h2, h3, h4⟩ := ih
      have he : |e| ≤ 1 := by
        have := hcon (4 * n)
        rw [h3.x] at this
        simpa using this
      obtain ⟨e', t', q0, q1, q2, q3, q4⟩ := moody_round P hacc allowed hall hp n h3 h4 he rfl h0 h1
      refine ⟨e', t', q0, q1, ?_, q3, q4⟩
      rw [pow_succ]
      linarith
  obtain ⟨n, hn⟩ := pow_unbounded_of_one_lt (1 / |d|) (show (1 : ℝ) < 4 / 3 by norm_num)
  have hd' : 0 < |d| := abs_pos.mpr hd
  obtain ⟨e, t, -, -, h2, h3, -⟩ := key n
  have he := hcon (4 * n)
  rw [h3.x] at he
  rw [div_lt_iff₀ hd'] at hn
  have : |e| ≤ 1 := by simpa using he
  linarith

/-- **C157, from the start.** So with a first measurement which is off by any distance and states an accuracy of 1000 metres. -/
theorem C157_start (cs : CommonSettings) (hacc : cs.useAccuracyForSmoothing = true) (allowed : ℕ → ℝ → ℝ → Prop)
    (hall : ∀ k x y, allowed k x y) {x y d : ℝ} {t0 : Int} (ht : 0 < t0) {pos : ℕ → Position} (hp : Moody t0 x y pos) (hd : d ≠ 0) :
    ∃ n, 1 < |(abIterate (abParams cs) allowed (abRun (abParams cs) [.smooth ⟨x + d, y, "1", 1000, t0, false, .INDOOR, 0⟩ fun _ _ => True])
      pos n).position.x - x| := by
  have e : abRun (abParams cs) [.smooth ⟨x + d, y, "1", 1000, t0, false, .INDOOR, 0⟩ fun _ _ => True] =
      ⟨true, 0, 0, ⟨x + d, y, "1", 1000, t0, false, .INDOOR, 0⟩⟩ := by
    have := (abSmooth_newer (abParams cs) (fun _ _ => True) abInit ⟨x + d, y, "1", 1000, t0, false, .INDOOR, 0⟩
      (by simpa [abInit, Position.default] using ht) (gain_lt _ _ _)).1 (.inl rfl)
    unfold abRun
    rw [List.foldl_cons, List.foldl_nil]
    unfold abStep
    dsimp only
    rw [this]
  rw [e]
  exact C157_unsettled (abParams cs) hacc allowed hall hp ⟨rfl, rfl, rfl, rfl, rfl, rfl⟩ (by norm_num) hd

/-- Such measurements exist, and such settings. -/
noncomputable example : ∃ (cs : CommonSettings) (pos : ℕ → Position), cs.useAccuracyForSmoothing = true ∧ cs.useSpeedConstraint = true ∧
    Moody 1000 3 4 pos :=
  ⟨{ useAccuracyForSmoothing := true }, fun n => ⟨3, 4, "1", if n % 4 = 0 then 1 else if n % 4 = 1 then 10 else if n % 4 = 2 then 100 else 1000,
    1000 + 1000 * (n + 1), false, .INDOOR, 0⟩, rfl, rfl, ⟨fun _ => rfl, fun _ => rfl, fun _ => rfl, fun _ => rfl⟩⟩

end Verif.Smooth
