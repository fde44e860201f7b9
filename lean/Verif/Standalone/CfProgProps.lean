import Verif.Standalone.CfProgModel
import Verif.Standalone.CfProps
import Verif.Fusion.RestProps

/-! # C110: the static tilt test, for every noise -/

namespace Verif.Standalone.Cf

open Verif Verif.Pedo Verif.Fusion

theorem loop_run (j1 j2 : SensorType) (l pre : List (Measurement × Measurement × Measurement)) (i : ℕ) (o : Orientation)
    (h : (orientationLoop (run defaultGains j1 j2 (pre.flatMap (fun t => [t.1, t.2.1, t.2.2]))) l)[i]? = some o) :
    o = getFusedOrientation (run defaultGains j1 j2 ((pre ++ l.take (i + 1)).flatMap (fun t => [t.1, t.2.1, t.2.2]))) ∧
      i < l.length := by
  induction l generalizing pre i with
  | nil => simp [orientationLoop] at h
  | cons t l ih =>
    obtain ⟨a, g, m⟩ := t
    have e : run defaultGains j1 j2 ((pre ++ [(a, g, m)]).flatMap (fun t => [t.1, t.2.1, t.2.2])) =
        update defaultGains (update defaultGains (update defaultGains
          (run defaultGains j1 j2 (pre.flatMap (fun t => [t.1, t.2.1, t.2.2]))) a) g) m := by
      simp [run, List.flatMap_append, List.foldl_append]
    have hl : orientationLoop (run defaultGains j1 j2 (pre.flatMap (fun t => [t.1, t.2.1, t.2.2]))) ((a, g, m) :: l) =
        getFusedOrientation (run defaultGains j1 j2 ((pre ++ [(a, g, m)]).flatMap (fun t => [t.1, t.2.1, t.2.2]))) ::
          orientationLoop (run defaultGains j1 j2 ((pre ++ [(a, g, m)]).flatMap (fun t => [t.1, t.2.1, t.2.2]))) l := by
      rw [e]; rfl
    rw [hl] at h
    cases i with
    | zero =>
      simp only [List.getElem?_cons_zero, Option.some.injEq] at h
      exact ⟨by rw [← h]; simp, by simp⟩
    | succ i =>
      rw [List.getElem?_cons_succ] at h
      obtain ⟨h1, h2⟩ := ih _ i h
      refine ⟨?_, by simpa using h2⟩
      rw [h1]
      simp

theorem loop_length (f : State) (l : List (Measurement × Measurement × Measurement)) :
    (orientationLoop f l).length = l.length := by
  induction l generalizing f with
  | nil => rfl
  | cons t l ih =>
    obtain ⟨a, g, m⟩ := t
    simp only [orientationLoop, List.length_cons, ih]

/-- The rounds of the test. -/
noncomputable def tiltRounds (tiltPitch : ℝ) (na ng : ℕ → Vector3d) (n : ℕ) :
    List (SensorMeasurement × List SensorMeasurement) :=
  (List.range n).map (fun i => (toLib (tiltedAccel tiltPitch (na i) i),
    [toLib (tiltedGyro (ng i) i), toLib (tiltedMagn tiltPitch i)]))

theorem tilt_messages (τ : ℝ) (na ng : ℕ → Vector3d) (n : ℕ) :
    messages (tiltRounds τ na ng n) =
      ((getTiltedImuMeasurements n τ na ng).flatMap (fun t => [t.1, t.2.1, t.2.2])).map toLib := by
  unfold messages tiltRounds getTiltedImuMeasurements
  induction n with
  | zero => rfl
  | succ n ih =>
    rw [List.range_succ, List.map_append, List.map_append, List.flatMap_append, List.flatMap_append, List.map_append, ih]
    rfl

theorem tilt_take (τ : ℝ) (na ng : ℕ → Vector3d) (n k : ℕ) (h : k ≤ n) :
    (getTiltedImuMeasurements n τ na ng).take k = getTiltedImuMeasurements k τ na ng := by
  unfold getTiltedImuMeasurements
  rw [← List.map_take, List.take_range, Nat.min_eq_left h]

theorem tiltRounds_succ (τ : ℝ) (na ng : ℕ → Vector3d) (n : ℕ) :
    tiltRounds τ na ng (n + 1) = tiltRounds τ na ng n ++ [(toLib (tiltedAccel τ (na n) n),
      [toLib (tiltedGyro (ng n) n), toLib (tiltedMagn τ n)])] := by
  unfold tiltRounds
  rw [List.range_succ, List.map_append]
  rfl

theorem tilt_lastGyro (τ : ℝ) (na ng : ℕ → Vector3d) (n : ℕ) :
    lastGyro (messages (tiltRounds τ na ng n)) = if n = 0 then none else some (sampleTs (n - 1)) := by
  cases n with
  | zero => rfl
  | succ n =>
    rw [tiltRounds_succ, messages_snoc]
    have : ∀ (l : List SensorMeasurement) (a b : SensorMeasurement), l ++ [a, b] = l ++ [a] ++ [b] := by simp
    rw [this, lastGyro_snoc, if_neg (by simp [toLib, tiltedMagn]), lastGyro_snoc, if_pos (by simp [toLib, tiltedGyro])]
    simp [toLib, tiltedGyro]

theorem tilt_mem (τ : ℝ) (na ng : ℕ → Vector3d) (n : ℕ) (m : SensorMeasurement) (h : m ∈ messages (tiltRounds τ na ng n)) :
    ∃ i, m.ts = sampleTs i := by
  simp only [messages, tiltRounds, List.mem_flatMap, List.mem_map, List.mem_range] at h
  obtain ⟨r, ⟨i, -, rfl⟩, hm⟩ := h
  refine ⟨i, ?_⟩
  simp only [List.mem_cons, List.not_mem_nil, or_false] at hm
  rcases hm with rfl | rfl | rfl <;> rfl

theorem tilt_rest (τ : ℝ) (na ng : ℕ → Vector3d) (n : ℕ) (ρ w : ℝ) (h0 : 0 ≤ ρ) (h1 : ρ < 1 / 2) (hw : 0 ≤ w)
    (ha : ∀ i < n, magnitude (na i) ≤ ρ * G) (hg : ∀ i < n, magnitude (ng i) ≤ w) :
    RestRounds ⟨-Real.sin τ, 0, Real.cos τ⟩ (Real.arcsin ρ) (w / 100) [] (tiltRounds τ na ng n) := by
  have hu : dot (⟨-Real.sin τ, 0, Real.cos τ⟩ : Vector3d) ⟨-Real.sin τ, 0, Real.cos τ⟩ = 1 := by
    simp only [dot]
    linear_combination Real.sin_sq_add_cos_sq τ
  have hround : ∀ r ∈ tiltRounds τ na ng n, ∃ i < n, r = (toLib (tiltedAccel τ (na i) i),
      [toLib (tiltedGyro (ng i) i), toLib (tiltedMagn τ i)]) := by
    intro r hr
    simp only [tiltRounds, List.mem_map, List.mem_range] at hr
    obtain ⟨i, hi, rfl⟩ := hr
    exact ⟨i, hi, rfl⟩
  have hG : G = 9.81 := rfl
  refine ⟨?_, ?_, ?_, ?_, ?_⟩
  · intro r hr
    obtain ⟨i, hi, rfl⟩ := hround r hr
    have := C110_noise ⟨-Real.sin τ, 0, Real.cos τ⟩ (tiltedAccel τ (na i) i).values hu G ρ (by rw [hG]; norm_num) h0 (by linarith) (by
      have e : (⟨(tiltedAccel τ (na i) i).values.x - G * -Real.sin τ, (tiltedAccel τ (na i) i).values.y - G * 0,
          (tiltedAccel τ (na i) i).values.z - G * Real.cos τ⟩ : Vector3d) = na i := by
        apply vec_ext <;> simp only [tiltedAccel] <;> norm_num
      dsimp only
      rw [e]
      exact ha i hi)
    refine ⟨rfl, ?_, this.2⟩
    refine lt_of_lt_of_le ?_ this.1
    rw [hG]
    have : EPSILON < 1 := by norm_num [EPSILON]
    linarith
  · intro r hr m hm
    obtain ⟨i, hi, rfl⟩ := hround r hr
    simp only [List.mem_cons, List.not_mem_nil, or_false] at hm
    rcases hm with rfl | rfl <;> simp [toLib, tiltedGyro, tiltedMagn]
  · intro b r a e
    have hb : b = tiltRounds τ na ng b.length ∧ b.length < n := by
      have hlen : b.length < n := by
        have := congrArg List.length e
        simp only [tiltRounds, List.length_map, List.length_range, List.length_append, List.length_cons] at this
        omega
      refine ⟨?_, hlen⟩
      have := congrArg (List.take b.length) e
      rw [List.take_left] at this
      rw [← this]
      unfold tiltRounds
      rw [← List.map_take, List.take_range, Nat.min_eq_left hlen.le]
      simp
    have hr : r = (toLib (tiltedAccel τ (na b.length) b.length),
      [toLib (tiltedGyro (ng b.length) b.length), toLib (tiltedMagn τ b.length)]) := by
      have h1 : (tiltRounds τ na ng n)[b.length]? = some r := by rw [e]; simp
      unfold tiltRounds at h1
      rw [List.getElem?_map, List.getElem?_range hb.2] at h1
      simp only [Option.map_some, Option.some.injEq] at h1
      exact h1.symm
    rw [List.nil_append, hb.1, tilt_lastGyro, hr]
    have hl : (tiltRounds τ na ng b.length).length = b.length := by simp [tiltRounds]
    simp only [reported, toLib, tiltedGyro, tiltedMagn, if_true, reduceCtorEq, if_false, add_zero]
    have hv : (⟨0.0 + (ng b.length).x, 0.0 + (ng b.length).y, 0.0 + (ng b.length).z⟩ : Vector3d) = ng b.length := by
      apply vec_ext <;> simp only [] <;> norm_num
    rw [hv]
    have hm := hg _ hb.2
    have hm0 := magnitude_nonneg (ng b.length)
    by_cases h0 : b.length = 0
    · rw [if_pos h0]
      simp
      positivity
    · rw [if_neg h0]
      have : sampleTs b.length - (some (sampleTs (b.length - 1))).getD (sampleTs b.length) = 10 := by
        simp only [Option.getD_some, sampleTs]
        omega
      rw [this]
      norm_num
      linarith
  · intro m hm _
    rw [List.nil_append] at hm
    obtain ⟨i, hi⟩ := tilt_mem τ na ng n m hm
    rw [hi]
    unfold sampleTs
    omega
  · intro p m r e hm
    rw [List.nil_append]
    -- the second message of the list is a gyroscope message
    cases n with
    | zero => simp [messages, tiltRounds] at e
    | succ n =>
      have hlist : ∃ l, messages (tiltRounds τ na ng (n + 1)) =
          toLib (tiltedAccel τ (na 0) 0) :: toLib (tiltedGyro (ng 0) 0) :: l := by
        unfold messages tiltRounds
        rw [List.range_succ_eq_map]
        exact ⟨_, rfl⟩
      obtain ⟨l, hl⟩ := hlist
      rw [hl] at e
      match p, e with
      | [], e =>
        simp only [List.nil_append, List.cons.injEq] at e
        rw [← e.1] at hm
        simp [toLib, tiltedAccel] at hm
      | [x], e =>
        simp only [List.cons_append, List.nil_append, List.cons.injEq] at e
        rw [← e.2.1] at hm
        simp [toLib, tiltedGyro] at hm
      | x :: y :: p, e =>
        simp only [List.cons_append, List.cons.injEq] at e
        exact ⟨y, by simp, by rw [← e.2.1]; rfl⟩

theorem start_error (c : CfConfig) (j1 j2 : SensorType × Int) (τ : ℝ) (h : |τ| ≤ Real.pi) :
    tiltError (cfRun c j1 j2 []) ⟨-Real.sin τ, 0, Real.cos τ⟩ = |τ| := by
  unfold tiltError angleBetween
  have : dot (⟨-Real.sin τ, 0, Real.cos τ⟩ : Vector3d) (toDevice (cfRun c j1 j2 []).q vertical) = Real.cos |τ| := by
    rw [Real.cos_abs]
    simp [cfRun, cfInit, Quat.one, toDevice, vertical, dot]
  rw [this]
  exact Real.arccos_cos (abs_nonneg _) h

/-- **C110.** The static tilt test, whatever the noise: if no accelerometer noise is longer than the part `ρ` of the gravity and
no gyroscope noise is longer than `w`, then the pitch that the filter answers after `i + 1` samples of a device pitched by `τ` is
off by at most `(11/12)^(i+1) |τ| + arcsin ρ + 12 w / 100`, and for a device held level so is the roll. -/
theorem C110_program (j1 j2 : SensorType) (n : ℕ) (τ : ℝ) (na ng : ℕ → Vector3d) (ρ w : ℝ) (h0 : 0 ≤ ρ) (hw : 0 ≤ w)
    (ha : ∀ i < n, magnitude (na i) ≤ ρ * G) (hg : ∀ i < n, magnitude (ng i) ≤ w)
    (hτ : |τ| + Real.arcsin ρ ≤ 1 / 2) (hsmall : 2 * Real.arcsin ρ + 12 * (w / 100) ≤ 1 / 2) (i : ℕ) (o : Orientation)
    (h : (orientationLoop (init j1 j2) (getTiltedImuMeasurements n τ na ng))[i]? = some o) :
    |o.pitch - τ| ≤ (11 / 12) ^ (i + 1) * |τ| + (Real.arcsin ρ + 12 * (w / 100)) ∧
    (τ = 0 → |o.roll| ≤ Real.arcsin ρ + 12 * (w / 100)) := by
  have hpi := Real.pi_gt_three
  have hρ0 : 0 ≤ Real.arcsin ρ := Real.arcsin_nonneg.mpr h0
  have h1 : ρ < 1 / 2 := by
    by_contra hcon
    have h2 : Real.arcsin (1 / 2) ≤ Real.arcsin ρ := Real.monotone_arcsin (not_lt.mp hcon)
    have h3 : (1 / 2 : ℝ) ≤ Real.arcsin (1 / 2) := by
      have h4 : Real.sin (1 / 2) ≤ 1 / 2 := Real.sin_le (by norm_num)
      exact (Real.le_arcsin_iff_sin_le ⟨by linarith, by linarith⟩ ⟨by norm_num, by norm_num⟩).mpr h4
    linarith [abs_nonneg τ]
  obtain ⟨e, hi⟩ := loop_run j1 j2 (getTiltedImuMeasurements n τ na ng) [] i o h
  have hin : i < n := by simpa [getTiltedImuMeasurements] using hi
  rw [List.nil_append, tilt_take τ na ng n (i + 1) hin] at e
  have es := (C103_same defaultGains 0 j1 j2 (j1, -1) (j2, -1)
    ((getTiltedImuMeasurements (i + 1) τ na ng).flatMap (fun t => [t.1, t.2.1, t.2.2]))).1
  rw [es, ← tilt_messages] at e
  have hu : dot (⟨-Real.sin τ, 0, Real.cos τ⟩ : Vector3d) ⟨-Real.sin τ, 0, Real.cos τ⟩ = 1 := by
    simp only [dot]
    linear_combination Real.sin_sq_add_cos_sq τ
  have hr := tilt_rest τ na ng (i + 1) ρ w h0 h1 hw (fun k hk => ha k (by omega)) (fun k hk => hg k (by omega))
  have hst := start_error ⟨defaultGains.ka, defaultGains.km, defaultGains.ki, 0⟩ (j1, -1) (j2, -1) τ
    (by linarith [hρ0])
  have hka : defaultGains.ka = 1 / 10 := by norm_num [defaultGains]
  have e2 : 6 * (w / 100) / (5 * (1 / 10 : ℝ)) = 12 * (w / 100) := by ring
  have hb := C110_small ⟨defaultGains.ka, defaultGains.km, defaultGains.ki, 0⟩ (by rw [hka]; norm_num) (by rw [hka]; norm_num)
    (by norm_num [defaultGains, CF_DOUBLE_EPSILON]) (j1, -1) (j2, -1) _ hu (Real.arcsin ρ) (w / 100) hρ0 (by positivity)
    (by rw [hka, e2]; exact hsmall) [] (by rw [hst]; exact hτ) _ hr
  rw [hst, List.nil_append, hka] at hb
  have hlen : (tiltRounds τ na ng (i + 1)).length = i + 1 := by simp [tiltRounds]
  rw [hlen] at hb
  have e1 : (1 - 5 * (1 / 10 : ℝ) / 6) = 11 / 12 := by norm_num
  rw [e1, e2] at hb
  obtain ⟨p1, p2, -⟩ := C110_angles ⟨defaultGains.ka, defaultGains.km, defaultGains.ki, 0⟩ (j1, -1) (j2, -1)
    (messages (tiltRounds τ na ng (i + 1))) _ hu
  rw [← hka] at hb
  rw [← e] at p1 p2
  have ht := abs_nonneg τ
  have hpt : pitchOf ⟨-Real.sin τ, 0, Real.cos τ⟩ = τ := by
    unfold pitchOf
    simp only [neg_neg]
    obtain ⟨a1, a2⟩ := abs_le.mp (show |τ| ≤ Real.pi / 2 by linarith)
    exact Real.arcsin_sin a1 a2
  rw [hpt] at p1
  refine ⟨p1.trans hb, ?_⟩
  intro h00
  rw [h00, abs_zero, mul_zero, zero_add] at hb
  rw [h00] at p2
  refine (p2 ?_ ?_).trans hb
  · simp [vertical]
  · linarith

theorem arcsin_small (ρ t : ℝ) (h0 : 0 ≤ t) (h1 : t ≤ 1) (h : ρ ≤ t - t ^ 3 / 6) : Real.arcsin ρ ≤ t := by
  have hpi := Real.pi_gt_three
  have hs : t - t ^ 3 / 6 ≤ Real.sin t := by
    rcases h0.lt_or_eq with h' | h'
    · exact (Real.sin_gt_sub_cube h').le
    · rw [← h']; simp
  have := Real.monotone_arcsin (h.trans hs)
  rwa [Real.arcsin_sin (by linarith) (by linarith)] at this

/-- **C110.** The checks of the test pass for every noise of at most 0.15 m/s² in the accelerometer (24 times the standard deviation
0.00617 that the test gives it on each axis) and 0.01 rad/s in the gyroscope (the bias that the test gives it, 0.005 rad/s on
each axis, is 0.0087 rad/s), however long it runs. -/
theorem C110_verdict (j1 j2 : SensorType) (n : ℕ) (na ng : ℕ → Vector3d)
    (ha : ∀ i < n, magnitude (na i) ≤ 0.15) (hg : ∀ i < n, magnitude (ng i) ≤ 0.01) :
    let ori := staticTiltOrientation j1 j2 n 0 na ng
    |ori.roll| < Real.pi * 1.0 / 180 ∧ |ori.pitch - 0| < Real.pi * 1.0 / 180 := by
  intro ori
  have hpi := Real.pi_gt_d2
  have has : Real.arcsin (1 / 65) ≤ 155 / 10000 := arcsin_small _ _ (by norm_num) (by norm_num) (by norm_num)
  have has0 : 0 ≤ Real.arcsin (1 / 65) := Real.arcsin_nonneg.mpr (by norm_num)
  cases ho : (orientationLoop (init j1 j2) (getTiltedImuMeasurements n 0 na ng)).getLast? with
  | none =>
    have : ori = ⟨0, 0, 0, 0⟩ := by
      change ((orientationLoop (init j1 j2) (getTiltedImuMeasurements n 0 na ng)).getLast?).getD _ = _
      rw [ho]; rfl
    rw [this]
    simp only [abs_zero, sub_zero]
    constructor <;> norm_num <;> linarith
  | some o =>
    have : ori = o := by
      change ((orientationLoop (init j1 j2) (getTiltedImuMeasurements n 0 na ng)).getLast?).getD _ = _
      rw [ho]; rfl
    rw [this]
    rw [List.getLast?_eq_getElem?] at ho
    have hb := C110_program j1 j2 n 0 na ng (1 / 65) 0.01 (by norm_num) (by norm_num)
      (fun i hi => (ha i hi).trans (by norm_num [G])) hg (by rw [abs_zero]; linarith) (by norm_num; linarith) _ o ho
    obtain ⟨b1, b2⟩ := hb
    have b3 := b2 rfl
    rw [abs_zero, mul_zero, zero_add] at b1
    constructor
    · refine lt_of_le_of_lt b3 ?_
      norm_num
      linarith
    · refine lt_of_le_of_lt b1 ?_
      norm_num
      linarith

/-- A device pitched by a tenth of a radian, with an accelerometer that is off by 1 cm/s² sideways and the gyroscope bias of the
test: after ten seconds the pitch is found to within 0.003 rad. -/
example (j1 j2 : SensorType) (o : Orientation)
    (h : (orientationLoop (init j1 j2) (getTiltedImuMeasurements 1000 (1 / 10) (fun _ => ⟨0, 0.01, 0⟩)
      (fun _ => ⟨0.005, 0.005, 0.005⟩)))[999]? = some o) : |o.pitch - 1 / 10| ≤ 0.003 := by
  have has : Real.arcsin (1 / 980) ≤ 103 / 100000 := arcsin_small _ _ (by norm_num) (by norm_num) (by norm_num)
  have has0 : 0 ≤ Real.arcsin (1 / 980) := Real.arcsin_nonneg.mpr (by norm_num)
  have hb := (C110_program j1 j2 1000 (1 / 10) _ _ (1 / 980) 0.01 (by norm_num) (by norm_num)
    (fun i _ => by
      unfold magnitude
      rw [Real.sqrt_le_iff]
      constructor <;> norm_num [G])
    (fun i _ => by
      unfold magnitude
      rw [Real.sqrt_le_iff]
      constructor <;> norm_num)
    (by rw [abs_of_nonneg (by norm_num)]; linarith) (by norm_num; linarith) 999 o h).1
  have h1 : ((11 : ℝ) / 12) ^ (999 + 1) ≤ (11 / 12) ^ 100 := pow_le_pow_of_le_one (by norm_num) (by norm_num) (by norm_num)
  have h2 : ((11 : ℝ) / 12) ^ 100 ≤ 1 / 1000 := by norm_num
  rw [abs_of_nonneg (show (0 : ℝ) ≤ 1 / 10 by norm_num)] at hb
  generalize ((11 : ℝ) / 12) ^ (999 + 1) = P at *
  have h3 := h1.trans h2
  clear h1 h2
  norm_num at hb h3 ⊢
  linarith

end Verif.Standalone.Cf
