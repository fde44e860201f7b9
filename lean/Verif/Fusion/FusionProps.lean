import Verif.Fusion.Props
import Verif.Pedo.Detect
import Verif.Pedo.Example

/-!
# Property theorems for `SensorFusion::calculateDisplacement`: C57, C58, C78
-/

namespace Verif.Fusion

open Verif Verif.Pedo

/-- The heading at the last reported step, 0 before the first one. -/
def lastStepHeading (infos : List MotionInfo) : ℝ :=
  ((infos.filter (fun i => i.isStepDetected)).getLast?.map MotionInfo.heading).getD 0

/-- What is known after any sequence of calls. -/
structure FInv (c : FusionConfig) (j1 j2 : SensorType × Int) (ms : List SensorMeasurement) (s : FusionState)
    (infos : List MotionInfo) (pouts : List (List Step)) : Prop where
  filter : s.filter = cfRun c.cf j1 j2 ms
  pedo : pedoRun (fusionOps ms) = some (s.pedometer, pouts)
  count : s.stepCounter = pouts.flatten.length
  heading : s.prevHeading = lastStepHeading infos
  length : infos.length = ms.length

/-- The result of one call, in terms of the filter and the pedometer. -/
structure Report (c : FusionConfig) (filter : CfState) (before : List Step) (infos : List MotionInfo)
    (o : List Step) (t : Int) (i : MotionInfo) : Prop where
  step : i.isStepDetected = !o.isEmpty
  counter : i.stepCounter = if o = [] then 0 else before.length + o.length
  distance : i.distance = (o.map Step.len).sum * c.stepMultiplier
  motion : i.lastMotionTs = if o = [] then 0 else t
  heading : i.heading = -getFusedAzimuth filter
  delta : i.deltaAngle = if o = [] then 0 else i.heading - lastStepHeading infos
  gyro : i.gyroHeading = filter.gyroHeading
  valid : i.isAzimuthValid = (c.useCalcAzimuth || !isDeviceAzimuthOutdated c.cf filter)
  azimuth : i.azimuth = if c.useCalcAzimuth = true then filter.magneticAzimuth
    else if isDeviceAzimuthOutdated c.cf filter = false then filter.deviceAzimuth else 0

theorem foldl_len (o : List Step) (a : ℝ) : o.foldl (fun sum st => sum + st.len) a = a + (o.map Step.len).sum := by
  induction o generalizing a with
  | nil => simp
  | cons x o ih => rw [List.foldl_cons, ih, List.map_cons, List.sum_cons, add_assoc]

theorem fusion_step (c : FusionConfig) (j1 j2 : SensorType × Int) (ms : List SensorMeasurement) (s : FusionState)
    (infos : List MotionInfo) (pouts : List (List Step)) (h : FInv c j1 j2 ms s infos pouts)
    (m : SensorMeasurement) (t : Int) :
    ∃ s' i o, calculateDisplacement c s m t = some (s', i) ∧
      FInv c j1 j2 (ms ++ [m]) s' (infos ++ [i]) (pouts ++ [[], o]) ∧
      Report c (cfRun c.cf j1 j2 (ms ++ [m])) pouts.flatten infos o t i := by
  obtain ⟨p', outs', h1, -⟩ := run_inv (fusionOps (ms ++ [m]))
  have hsplit : ∃ ped ped2 o, update s.pedometer m = some ped ∧ calculateSteps ped = some (ped2, o) := by
    have hp := h.pedo
    unfold pedoRun fusionOps at h1 hp
    rw [List.flatMap_append, List.foldlM_append, hp] at h1
    cases hu : update s.pedometer m with
    | none => simp [pedoRecord, pedoStep, hu, List.foldlM] at h1
    | some ped =>
      cases hc : calculateSteps ped with
      | none => simp [pedoRecord, pedoStep, hu, hc, List.foldlM] at h1
      | some r => exact ⟨ped, r.1, r.2, rfl, hc⟩
  obtain ⟨ped, ped2, o, hu, hc⟩ := hsplit
  have hped := run_snoc ms m s.pedometer ped ped2 pouts o h.pedo hu hc
  have hfil : cfUpdate c.cf s.filter m = cfRun c.cf j1 j2 (ms ++ [m]) := by
    rw [h.filter]
    unfold cfRun
    rw [List.foldl_append]
    rfl
  unfold calculateDisplacement
  simp only [hu, hc, hfil]
  have hstep : ∀ b : Bool, ∀ i : MotionInfo, i.isStepDetected = b → lastStepHeading (infos ++ [i]) =
      if b = true then i.heading else lastStepHeading infos := by
    intro b i hi
    unfold lastStepHeading
    cases b with
    | true => simp [hi]
    | false => simp [hi]
  cases o with
  | nil =>
    simp only [List.isEmpty_nil, Bool.not_true, Bool.false_eq_true, if_false]
    refine ⟨_, _, [], rfl, ⟨rfl, hped, ?_, ?_, ?_⟩, ⟨rfl, ?_, ?_, ?_, ?_, ?_, rfl, ?_, ?_⟩⟩
    · simpa using h.count
    · rw [hstep false _ rfl]
      simpa using h.heading
    · simp [h.length]
    · dsimp only; split_ifs <;> first | rfl | simp_all
    · dsimp only; split_ifs <;> simp
    · dsimp only; split_ifs <;> first | rfl | simp_all
    · dsimp only; split_ifs <;> first | rfl | simp_all
    · dsimp only; split_ifs <;> first | rfl | simp_all
    · dsimp only; split_ifs <;> first | rfl | simp_all
    · dsimp only; split_ifs <;> first | rfl | simp_all
  | cons st o =>
    simp only [List.isEmpty_cons, Bool.not_false, if_true]
    refine ⟨_, _, st :: o, rfl, ⟨rfl, hped, ?_, ?_, ?_⟩, ⟨rfl, ?_, ?_, ?_, ?_, ?_, rfl, ?_, ?_⟩⟩
    · simp [h.count]
    · rw [hstep true _ rfl]
      simp
    · simp [h.length]
    · simp [h.count]
    · dsimp only
      rw [foldl_len, zero_add]
    · simp
    · dsimp only; split_ifs <;> first | rfl | simp_all
    · dsimp only
      rw [h.heading]
      split_ifs <;> simp_all
    · dsimp only; split_ifs <;> first | rfl | simp_all
    · dsimp only; split_ifs <;> first | rfl | simp_all

theorem fusion_inv (c : FusionConfig) (j1 j2 : SensorType × Int) (calls : List (SensorMeasurement × Int)) :
    ∃ s infos pouts, fusionRun c j1 j2 calls = some (s, infos) ∧
      FInv c j1 j2 (calls.map Prod.fst) s infos pouts := by
  induction calls using List.reverseRecOn with
  | nil =>
    exact ⟨_, [], [], rfl, ⟨rfl, rfl, rfl, by simp [fusionInit, lastStepHeading], rfl⟩⟩
  | append_singleton calls call ih =>
    obtain ⟨s, infos, pouts, h1, h2⟩ := ih
    obtain ⟨s', i, o, g1, g2, -⟩ := fusion_step c j1 j2 _ s infos pouts h2 call.1 call.2
    refine ⟨s', infos ++ [i], pouts ++ [[], o], ?_, ?_⟩
    · unfold fusionRun at h1 ⊢
      rw [List.foldlM_append, h1]
      simp [List.foldlM, fusionRecord, g1]
    · rw [List.map_append]
      exact g2

/-- The result of the last call after any history. -/
theorem fusion_last (c : FusionConfig) (j1 j2 : SensorType × Int) (calls : List (SensorMeasurement × Int))
    (m : SensorMeasurement) (t : Int) :
    ∃ s infos p pouts s' i p' o, fusionRun c j1 j2 calls = some (s, infos) ∧
      pedoRun (fusionOps (calls.map Prod.fst)) = some (p, pouts) ∧
      fusionRun c j1 j2 (calls ++ [(m, t)]) = some (s', infos ++ [i]) ∧
      pedoRun (fusionOps (calls.map Prod.fst ++ [m])) = some (p', pouts ++ [[], o]) ∧
      Report c (cfRun c.cf j1 j2 (calls.map Prod.fst ++ [m])) pouts.flatten infos o t i := by
  obtain ⟨s, infos, pouts, h1, h2⟩ := fusion_inv c j1 j2 calls
  obtain ⟨s', i, o, g1, g2, g3⟩ := fusion_step c j1 j2 _ s infos pouts h2 m t
  refine ⟨s, infos, s.pedometer, pouts, s', i, s'.pedometer, o, h1, h2.pedo, ?_, g2.pedo, g3⟩
  unfold fusionRun at h1 ⊢
  rw [List.foldlM_append, h1]
  simp [List.foldlM, fusionRecord, g1]

/-! ## C57 -/

theorem device_state (c : CfConfig) (j1 j2 : SensorType × Int) (ms : List SensorMeasurement) :
    (cfRun c j1 j2 ms).lastDeviceAzimuthTs = ((lastOrientation ms).map Stamped.ts).getD (-1) ∧
    (cfRun c j1 j2 ms).deviceAzimuth = ((lastOrientation ms).map (fun m => m.data.values.x)).getD 0 ∧
    (cfRun c j1 j2 ms).currentTs = (ms.getLast?.map Stamped.ts).getD (-1) := by
  induction ms using List.reverseRecOn with
  | nil => exact ⟨rfl, rfl, rfl⟩
  | append_singleton ms m ih =>
    obtain ⟨ih1, ih2, -⟩ := ih
    unfold cfRun lastOrientation at *
    rw [List.foldl_append, List.filter_append]
    simp only [List.foldl_cons, List.foldl_nil]
    generalize ms.foldl (cfUpdate c) (cfInit j1 j2) = s at *
    unfold cfUpdate
    cases hm : m.data.type with
    | ORIENTATION => simp [hm]
    | ACCELEROMETER =>
      have hf : [m].filter (fun m => m.data.type = SensorType.ORIENTATION) = [] := by simp [hm]
      rw [hf, List.append_nil]
      exact ⟨ih1, ih2, by simp⟩
    | GYROSCOPE =>
      have hf : [m].filter (fun m => m.data.type = SensorType.ORIENTATION) = [] := by simp [hm]
      rw [hf, List.append_nil]
      dsimp only [updateUsingGyroscope]
      refine ⟨?_, ?_, by simp⟩
      · split_ifs <;> exact ih1
      · split_ifs <;> exact ih2
    | MAGNETOMETER =>
      have hf : [m].filter (fun m => m.data.type = SensorType.ORIENTATION) = [] := by simp [hm]
      rw [hf, List.append_nil]
      dsimp only
      refine ⟨?_, ?_, by simp⟩
      · split_ifs
        · rw [(magnetometer_keeps c _ m).2.2.1]; exact ih1
        · exact ih1
      · split_ifs
        · rw [(magnetometer_keeps c _ m).2.2.2]; exact ih2
        · exact ih2
    | BAROMETER =>
      have hf : [m].filter (fun m => m.data.type = SensorType.ORIENTATION) = [] := by simp [hm]
      rw [hf, List.append_nil]
      exact ⟨ih1, ih2, by simp⟩
    | LOCATION =>
      have hf : [m].filter (fun m => m.data.type = SensorType.ORIENTATION) = [] := by simp [hm]
      rw [hf, List.append_nil]
      exact ⟨ih1, ih2, by simp⟩

/-- **C57.** When the device azimuth is used, the result of any call claims a valid azimuth exactly if an
orientation measurement was received (time stamp not -1, the code's "none yet") and the last one is not
older than the lifetime at the time of the current measurement; the azimuth is then that of the last
orientation measurement, otherwise it is 0. -/
theorem C57_device (c : FusionConfig) (hc : c.useCalcAzimuth = false) (j1 j2 : SensorType × Int)
    (calls : List (SensorMeasurement × Int)) (m : SensorMeasurement) (t : Int) (s : FusionState)
    (infos : List MotionInfo) (i : MotionInfo) (h : fusionRun c j1 j2 (calls ++ [(m, t)]) = some (s, infos ++ [i])) :
    (i.isAzimuthValid = true ↔ ∃ o, lastOrientation (calls.map Prod.fst ++ [m]) = some o ∧ o.ts ≠ -1 ∧
      ((m.ts - o.ts : Int) : ℝ) ≤ 1000 * c.cf.lifetime) ∧
    (∀ o, i.isAzimuthValid = true → lastOrientation (calls.map Prod.fst ++ [m]) = some o →
      i.azimuth = o.data.values.x) ∧
    (i.isAzimuthValid = false → i.azimuth = 0) := by
  obtain ⟨-, infos', -, pouts, s', i', -, o, -, -, h3, -, h5⟩ := fusion_last c j1 j2 calls m t
  rw [h3] at h
  simp only [Option.some.injEq, Prod.mk.injEq] at h
  obtain ⟨-, h⟩ := h
  have hi : i' = i := by
    have := congrArg List.getLast? h
    simpa using this
  subst hi
  obtain ⟨d1, d2, d3⟩ := device_state c.cf j1 j2 (calls.map Prod.fst ++ [m])
  have hval : i'.isAzimuthValid = !isDeviceAzimuthOutdated c.cf (cfRun c.cf j1 j2 (calls.map Prod.fst ++ [m])) := by
    rw [h5.valid, hc, Bool.false_or]
  have haz := h5.azimuth
  rw [hc, if_neg (by simp)] at haz
  have hcur : (cfRun c.cf j1 j2 (calls.map Prod.fst ++ [m])).currentTs = m.ts := by rw [d3]; simp
  have hout : isDeviceAzimuthOutdated c.cf (cfRun c.cf j1 j2 (calls.map Prod.fst ++ [m])) = false ↔
      ∃ o, lastOrientation (calls.map Prod.fst ++ [m]) = some o ∧ o.ts ≠ -1 ∧
        ((m.ts - o.ts : Int) : ℝ) ≤ 1000 * c.cf.lifetime := by
    unfold isDeviceAzimuthOutdated
    dsimp only
    rw [hcur, d1]
    cases hl : lastOrientation (calls.map Prod.fst ++ [m]) with
    | none => simp
    | some x =>
      simp only [Option.map_some, Option.getD_some, Option.some.injEq, exists_eq_left']
      have key : ((m.ts - x.ts : Int) : ℝ) / 1000.0 > c.cf.lifetime ↔
          ¬ ((m.ts - x.ts : Int) : ℝ) ≤ 1000 * c.cf.lifetime := by
        rw [gt_iff_lt, lt_div_iff₀ (by norm_num), not_le]
        norm_num
        rw [mul_comm]
      by_cases h1 : x.ts = -1
      · simp [h1]
      · by_cases h2 : ((m.ts - x.ts : Int) : ℝ) ≤ 1000 * c.cf.lifetime
        · rw [if_neg (by rw [key]; tauto)]
          exact ⟨fun _ => ⟨h1, h2⟩, fun _ => rfl⟩
        · rw [if_pos (by rw [key]; tauto)]
          exact ⟨fun h => absurd h (by simp), fun h => absurd h.2 h2⟩
  refine ⟨?_, ?_, ?_⟩
  · rw [hval, ← hout]
    simp
  · intro x hx hl
    rw [hval] at hx
    rw [haz, if_pos (by simpa using hx), d2, hl]
    rfl
  · intro hx
    rw [hval] at hx
    rw [haz, if_neg (by simpa using hx)]

/-- `C57` for the other setting: the magnetic azimuth is always claimed valid, even before any
magnetometer measurement, when it is 0. -/
theorem C57_calculated (c : FusionConfig) (hc : c.useCalcAzimuth = true) (j1 j2 : SensorType × Int)
    (calls : List (SensorMeasurement × Int)) (m : SensorMeasurement) (t : Int) (s : FusionState)
    (infos : List MotionInfo) (i : MotionInfo) (h : fusionRun c j1 j2 (calls ++ [(m, t)]) = some (s, infos ++ [i])) :
    i.isAzimuthValid = true ∧ -Real.pi ≤ i.azimuth ∧ i.azimuth < Real.pi ∧
      ((∀ x ∈ calls.map Prod.fst ++ [m], x.data.type ≠ SensorType.MAGNETOMETER) → i.azimuth = 0) := by
  obtain ⟨-, infos', -, pouts, s', i', -, o, -, -, h3, -, h5⟩ := fusion_last c j1 j2 calls m t
  rw [h3] at h
  simp only [Option.some.injEq, Prod.mk.injEq] at h
  obtain ⟨-, h⟩ := h
  have hi : i' = i := by
    have := congrArg List.getLast? h
    simpa using this
  subst hi
  have haz := h5.azimuth
  rw [if_pos hc] at haz
  have hr := (C55_unit c.cf j1 j2 (calls.map Prod.fst ++ [m])).2.2.1
  refine ⟨by rw [h5.valid, hc]; simp, by rw [haz]; exact hr.1, by rw [haz]; exact hr.2, ?_⟩
  rw [haz]
  generalize calls.map Prod.fst ++ [m] = ms
  intro hn
  induction ms using List.reverseRecOn with
  | nil => rfl
  | append_singleton ms x ih =>
    have ih := ih (fun y hy => hn y (List.mem_append_left _ hy))
    have hx := hn x (by simp)
    unfold cfRun at *
    rw [List.foldl_append]
    simp only [List.foldl_cons, List.foldl_nil]
    generalize ms.foldl (cfUpdate c.cf) (cfInit j1 j2) = s at *
    unfold cfUpdate
    cases hm : x.data.type with
    | MAGNETOMETER => exact absurd hm hx
    | ORIENTATION => exact ih
    | ACCELEROMETER => exact ih
    | GYROSCOPE =>
      dsimp only [updateUsingGyroscope]
      split_ifs <;> exact ih
    | BAROMETER => exact ih
    | LOCATION => exact ih

/-- An orientation measurement with azimuth `v`. -/
def orient (ts : Int) (v : ℝ) : SensorMeasurement := ⟨⟨.ORIENTATION, ⟨v, 0, 0⟩⟩, ts⟩

/-- The hypotheses of `C57_device` are met with a lifetime of two seconds: an azimuth received at 1 s is
valid at 2.5 s and no more valid at 3.5 s. -/
example (j1 j2 : SensorType × Int) :
    (∃ s infos i, fusionRun ⟨false, 1, ⟨0.1, 0.05, 0, 2⟩⟩ j1 j2 ([(orient 1000 0.5, 0)] ++ [(acc 2500 1, 0)]) =
      some (s, infos ++ [i]) ∧ i.isAzimuthValid = true ∧ i.azimuth = 0.5) ∧
    (∃ s infos i, fusionRun ⟨false, 1, ⟨0.1, 0.05, 0, 2⟩⟩ j1 j2 ([(orient 1000 0.5, 0)] ++ [(acc 3500 1, 0)]) =
      some (s, infos ++ [i]) ∧ i.isAzimuthValid = false ∧ i.azimuth = 0) := by
  constructor
  · obtain ⟨-, infos, -, -, s, i, -, -, -, -, h, -, -⟩ :=
      fusion_last ⟨false, 1, ⟨0.1, 0.05, 0, 2⟩⟩ j1 j2 [(orient 1000 0.5, 0)] (acc 2500 1) 0
    obtain ⟨h1, h2, -⟩ := C57_device _ rfl _ _ _ _ _ _ _ _ h
    have ho : lastOrientation ([(orient 1000 0.5, (0 : Int))].map Prod.fst ++ [acc 2500 1]) = some (orient 1000 0.5) := by
      simp [lastOrientation, orient, acc]
    have hv := h1.mpr ⟨_, ho, by simp [orient], by simp only [orient, acc]; norm_num⟩
    exact ⟨s, infos, i, h, hv, h2 _ hv ho⟩
  · obtain ⟨-, infos, -, -, s, i, -, -, -, -, h, -, -⟩ :=
      fusion_last ⟨false, 1, ⟨0.1, 0.05, 0, 2⟩⟩ j1 j2 [(orient 1000 0.5, 0)] (acc 3500 1) 0
    obtain ⟨h1, -, h3⟩ := C57_device _ rfl _ _ _ _ _ _ _ _ h
    have ho : lastOrientation ([(orient 1000 0.5, (0 : Int))].map Prod.fst ++ [acc 3500 1]) = some (orient 1000 0.5) := by
      simp [lastOrientation, orient, acc]
    have hv : i.isAzimuthValid = false := by
      rw [← Bool.not_eq_true, h1]
      rintro ⟨o, ho', -, hl⟩
      rw [ho] at ho'
      cases ho'
      simp only [orient, acc] at hl
      norm_num at hl
    exact ⟨s, infos, i, h, hv, h3 hv⟩

/-! ## C58 -/

/-- **C58.** For any history: the steps `o` behind the result of a call are those which the pedometer
reports for it.  A step is announced exactly if there is one; then the counter is the number of all
steps reported by the pedometer so far, the displacement the sum of the lengths of the new steps times
the multiplier, the motion time the time of the call and the turn the change of heading since the last
announced step.  Without a step all of these are 0. -/
theorem C58_displacement (c : FusionConfig) (j1 j2 : SensorType × Int) (calls : List (SensorMeasurement × Int))
    (m : SensorMeasurement) (t : Int) :
    ∃ s infos p pouts s' i p' o, fusionRun c j1 j2 calls = some (s, infos) ∧
      pedoRun (fusionOps (calls.map Prod.fst)) = some (p, pouts) ∧
      fusionRun c j1 j2 (calls ++ [(m, t)]) = some (s', infos ++ [i]) ∧
      pedoRun (fusionOps (calls.map Prod.fst ++ [m])) = some (p', pouts ++ [[], o]) ∧
      (i.isStepDetected = true ↔ o ≠ []) ∧
      (o ≠ [] → i.stepCounter = (pouts ++ [[], o]).flatten.length ∧
        i.distance = (o.map Step.len).sum * c.stepMultiplier ∧ i.lastMotionTs = t ∧
        i.deltaAngle = i.heading - lastStepHeading infos) ∧
      (o = [] → i.stepCounter = 0 ∧ i.distance = 0 ∧ i.lastMotionTs = 0 ∧ i.deltaAngle = 0) := by
  obtain ⟨s, infos, p, pouts, s', i, p', o, h1, h2, h3, h4, h5⟩ := fusion_last c j1 j2 calls m t
  refine ⟨s, infos, p, pouts, s', i, p', o, h1, h2, h3, h4, ?_, ?_, ?_⟩
  · rw [h5.step]
    cases o <;> simp
  · intro ho
    refine ⟨?_, h5.distance, ?_, ?_⟩
    · rw [h5.counter, if_neg ho]; simp
    · rw [h5.motion, if_neg ho]
    · rw [h5.delta, if_neg ho]
  · rintro rfl
    refine ⟨?_, ?_, ?_, ?_⟩
    · rw [h5.counter, if_pos rfl]
    · rw [h5.distance]; simp
    · rw [h5.motion, if_pos rfl]
    · rw [h5.delta, if_pos rfl]

/-- **C58.** Over any history the announced step counters strictly increase, and displacements are not
negative for a non-negative multiplier. -/
theorem C58_monotone (c : FusionConfig) (j1 j2 : SensorType × Int) (calls : List (SensorMeasurement × Int))
    (s : FusionState) (infos : List MotionInfo) (h : fusionRun c j1 j2 calls = some (s, infos)) :
    ((infos.filter (fun i => i.isStepDetected)).map MotionInfo.stepCounter).Pairwise (· < ·) ∧
      (0 ≤ c.stepMultiplier → ∀ i ∈ infos, 0 ≤ i.distance) := by
  have key : ∃ s infos pouts, fusionRun c j1 j2 calls = some (s, infos) ∧
      FInv c j1 j2 (calls.map Prod.fst) s infos pouts ∧
      ((infos.filter (fun i => i.isStepDetected)).map MotionInfo.stepCounter).Pairwise (· < ·) ∧
      (∀ i ∈ infos, i.stepCounter ≤ pouts.flatten.length) ∧
      (0 ≤ c.stepMultiplier → ∀ i ∈ infos, 0 ≤ i.distance) := by
    clear h
    induction calls using List.reverseRecOn with
    | nil =>
      exact ⟨_, [], [], rfl, ⟨rfl, rfl, rfl, by simp [fusionInit, lastStepHeading], rfl⟩, by simp, by simp, by simp⟩
    | append_singleton calls call ih =>
      obtain ⟨s, infos, pouts, h1, h2, h3, h4, h6⟩ := ih
      obtain ⟨s', i, o, g1, g2, g3⟩ := fusion_step c j1 j2 _ s infos pouts h2 call.1 call.2
      refine ⟨s', infos ++ [i], pouts ++ [[], o], ?_, ?_, ?_, ?_, ?_⟩
      · unfold fusionRun at h1 ⊢
        rw [List.foldlM_append, h1]
        simp [List.foldlM, fusionRecord, g1]
      · rw [List.map_append]
        exact g2
      · rw [List.filter_append, List.map_append, List.pairwise_append]
        refine ⟨h3, ?_, ?_⟩
        · by_cases hi : i.isStepDetected = true
          · simp [hi]
          · simp [hi]
        · intro a ha b hb
          obtain ⟨x, hx, rfl⟩ := List.mem_map.mp ha
          obtain ⟨y, hy, rfl⟩ := List.mem_map.mp hb
          rw [List.mem_filter] at hx hy
          have hy1 := List.mem_singleton.mp hy.1
          subst hy1
          have ho : o ≠ [] := by
            rintro rfl
            have := g3.step
            rw [hy.2] at this
            simp at this
          rw [g3.counter, if_neg ho]
          have := h4 x hx.1
          have : 0 < o.length := List.length_pos_iff.mpr ho
          omega
      · intro x hx
        rcases List.mem_append.mp hx with hx | hx
        · have := h4 x hx
          simp only [List.flatten_append, List.length_append]
          omega
        · rw [List.mem_singleton] at hx
          rw [hx, g3.counter]
          split_ifs
          · omega
          · simp
      · intro hmul x hx
        rcases List.mem_append.mp hx with hx | hx
        · exact h6 hmul x hx
        · rw [List.mem_singleton] at hx
          rw [hx, g3.distance]
          refine mul_nonneg (List.sum_nonneg ?_) hmul
          intro v hv
          obtain ⟨st, hst, rfl⟩ := List.mem_map.mp hv
          exact (C52_spacing _ _ _ g2.pedo).2.1 st (by simp [hst])
  obtain ⟨s', infos', pouts, h1, -, h3, -, h5⟩ := key
  rw [h1] at h
  cases h
  exact ⟨h3, h5⟩

/-- A walk with one step: the fourth call announces it with counter 1. -/
example (c : FusionConfig) (j1 j2 : SensorType × Int) : ∃ s infos i,
    fusionRun c j1 j2 ([(acc 1000 0, 0), (acc 1250 0, 1), (acc 1500 0, 2)] ++ [(acc 1750 10, 3)]) =
      some (s, infos ++ [i]) ∧ i.isStepDetected = true ∧ i.stepCounter = 1 ∧ i.lastMotionTs = 3 := by
  obtain ⟨-, infos, -, pouts, s, i, p, o, -, -, h1, h2, h3, h4, -⟩ := C58_displacement c j1 j2
    [(acc 1000 0, 0), (acc 1250 0, 1), (acc 1500 0, 2)] (acc 1750 10) 3
  obtain ⟨p', o', e1, len, before, e2, e3⟩ := walk_one_step
  have e4 : pouts ++ [[], o] = o' := by
    have := h2.symm.trans e1
    simp only [Option.some.injEq, Prod.mk.injEq] at this
    exact this.2
  have ho : o = [⟨1750, len⟩] := by
    have := congrArg List.getLast? (e4.trans e2)
    simpa using this
  have hne : o ≠ [] := by rw [ho]; simp
  obtain ⟨g1, -, g3, -⟩ := h4 hne
  refine ⟨s, infos, i, h1, h3.mpr hne, ?_, g3⟩
  rw [g1, e4, e2, List.flatten_append, e3]
  rfl

/-! ## C78 -/

/-- Two states of the filter that agree apart from the low passed measurements. -/
def SameButLow (a b : CfState) : Prop :=
  { a with magnLowPassed := b.magnLowPassed, accelLowPassed := b.accelLowPassed } = b

theorem sameButLow_update (c : CfConfig) (a b : CfState) (h : SameButLow a b) (m : SensorMeasurement) :
    SameButLow (cfUpdate c a m) (cfUpdate c b m) := by
  unfold SameButLow at h
  rw [← h]
  unfold cfUpdate SameButLow
  cases m.data.type with
  | MAGNETOMETER =>
    dsimp only
    by_cases hg : a.lastGyroTs = -1
    · simp only [hg, if_true]
      unfold updateUsingMagnetometer
      by_cases hz : magnitude (vnormalized m.data.values) < CF_DOUBLE_EPSILON
      · simp only [hz, if_true]
      · simp only [hz, if_false]
    · simp only [hg, if_false]
  | GYROSCOPE =>
    dsimp only
    by_cases hg : a.lastGyroTs = -1
    · simp only [hg, if_true]
      rfl
    · simp only [hg, if_false]
      rfl
  | ACCELEROMETER => rfl
  | ORIENTATION => rfl
  | BAROMETER => rfl
  | LOCATION => rfl

/-- Two states of the sensor fusion that agree apart from the low passed measurements. -/
def SameFusion (a b : FusionState) : Prop :=
  SameButLow a.filter b.filter ∧ a.pedometer = b.pedometer ∧ a.stepCounter = b.stepCounter ∧ a.prevHeading = b.prevHeading

theorem displacement_same (c : FusionConfig) (s s' : FusionState) (h : SameFusion s s') (m : SensorMeasurement) (ts : Int)
    {t : FusionState} {i : MotionInfo} (g1 : calculateDisplacement c s m ts = some (t, i)) :
    ∃ t', calculateDisplacement c s' m ts = some (t', i) ∧ SameFusion t t' := by
  obtain ⟨h3, h4, h5, h6⟩ := h
  have hu := sameButLow_update c.cf _ _ h3 m
  unfold calculateDisplacement at g1 ⊢
  rw [← h4, ← h5, ← h6]
  cases hp : update s.pedometer m with
  | none => rw [hp] at g1; simp at g1
  | some ped =>
    rw [hp] at g1
    dsimp only at g1 ⊢
    cases hq : calculateSteps ped with
    | none => rw [hq] at g1; simp at g1
    | some r =>
      rw [hq] at g1
      dsimp only at g1 ⊢
      unfold SameButLow at hu
      have a1 : getFusedAzimuth (cfUpdate c.cf s'.filter m) = getFusedAzimuth (cfUpdate c.cf s.filter m) := by
        rw [← hu]; rfl
      have a2 : (cfUpdate c.cf s'.filter m).magneticAzimuth = (cfUpdate c.cf s.filter m).magneticAzimuth := by
        rw [← hu]
      have a3 : (cfUpdate c.cf s'.filter m).deviceAzimuth = (cfUpdate c.cf s.filter m).deviceAzimuth := by
        rw [← hu]
      have a4 : isDeviceAzimuthOutdated c.cf (cfUpdate c.cf s'.filter m) =
          isDeviceAzimuthOutdated c.cf (cfUpdate c.cf s.filter m) := by
        rw [← hu]; rfl
      have a5 : (cfUpdate c.cf s'.filter m).gyroHeading = (cfUpdate c.cf s.filter m).gyroHeading := by
        rw [← hu]
      rw [a1, a2, a3, a4, a5]
      by_cases hs : r.2.isEmpty = true
      · simp only [hs, Bool.not_true, Bool.false_eq_true, if_false, Option.some.injEq, Prod.mk.injEq] at g1 ⊢
        obtain ⟨rfl, rfl⟩ := g1
        exact ⟨_, ⟨rfl, rfl⟩, hu, rfl, rfl, rfl⟩
      · simp only [Bool.not_eq_true] at hs
        simp only [hs, Bool.not_false, if_true, Option.some.injEq, Prod.mk.injEq] at g1 ⊢
        obtain ⟨rfl, rfl⟩ := g1
        exact ⟨_, ⟨rfl, rfl⟩, hu, rfl, rfl, rfl⟩

/-- **C78.** The filter reads time stamps of low passed measurements that were never initialised; whatever
they contain, no result of any history depends on it. -/
theorem C78_uninitialised (c : FusionConfig) (j1 j2 k1 k2 : SensorType × Int)
    (calls : List (SensorMeasurement × Int)) :
    (fusionRun c j1 j2 calls).map Prod.snd = (fusionRun c k1 k2 calls).map Prod.snd := by
  have key : ∃ s s' infos, fusionRun c j1 j2 calls = some (s, infos) ∧ fusionRun c k1 k2 calls = some (s', infos) ∧
      SameButLow s.filter s'.filter ∧ s.pedometer = s'.pedometer ∧ s.stepCounter = s'.stepCounter ∧
      s.prevHeading = s'.prevHeading := by
    induction calls using List.reverseRecOn with
    | nil => exact ⟨_, _, [], rfl, rfl, rfl, rfl, rfl, rfl⟩
    | append_singleton calls call ih =>
      obtain ⟨s, s', infos, h1, h2, h3, h4, h5, h6⟩ := ih
      obtain ⟨t, infos2, pouts, e1, e2⟩ := fusion_inv c j1 j2 calls
      rw [h1] at e1
      cases e1
      obtain ⟨t, i, o, g1, -, -⟩ := fusion_step c j1 j2 _ s infos pouts e2 call.1 call.2
      have hsame := displacement_same c _ _ ⟨h3, h4, h5, h6⟩ call.1 call.2 g1
      obtain ⟨t', g2, g3⟩ := hsame
      refine ⟨t, t', infos ++ [i], ?_, ?_, g3⟩
      · unfold fusionRun at h1 ⊢
        rw [List.foldlM_append, h1]
        simp [List.foldlM, fusionRecord, g1]
      · unfold fusionRun at h2 ⊢
        rw [List.foldlM_append, h2]
        simp [List.foldlM, fusionRecord, g2]
  obtain ⟨s, s', infos, h1, h2, -⟩ := key
  rw [h1, h2]
  rfl

end Verif.Fusion
