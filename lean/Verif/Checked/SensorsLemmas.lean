import Verif.Checked.OpsLemmas
import Verif.Checked.Sensors
import Verif.Pedo.Lemmas

/-!
# The checked pedometer and filter never fail on time stamps in range
-/

namespace Verif.Checked

open Verif Verif.Pedo Verif.Fusion

theorem magnitude_eq (v : Vector3d) : magnitude v = some (Pedo.magnitude v) :=
  sqrt_eq (by nlinarith [mul_self_nonneg v.x, mul_self_nonneg v.y, mul_self_nonneg v.z])

/-! ## Pedometer -/

def SafeAll (l : List SensorMeasurement) : Prop := ∀ m ∈ l, Safe m.ts

theorem scan_eq (last T : Int) (hl : Safe last) (l : List SensorMeasurement) (h : SafeAll l) :
    scan last T l = some (Pedo.scan last T l) := by
  induction l with
  | nil => rfl
  | cons m l ih =>
    simp only [scan, Pedo.scan, sub_eq hl (h m List.mem_cons_self), Option.bind_eq_bind, Option.bind_some]
    split_ifs
    · exact ih (fun m hm => h m (List.mem_cons_of_mem _ hm))
    · rfl

theorem sumMagn_eq (l : List SensorMeasurement) : sumMagn l = some (Pedo.sumMagn l) := by
  unfold sumMagn Pedo.sumMagn
  exact foldlM_eq l 0 (fun a m _ => by simp [magnitude_eq])

theorem filtered_eq (l : List SensorMeasurement) (h : SafeAll l) :
    filteredMagnitude l = some (calculateFilteredAccMagnitudes l) := by
  unfold filteredMagnitude calculateFilteredAccMagnitudes
  cases hl : l.getLast? with
  | none => rfl
  | some last =>
    have hs : Safe last.ts := h _ (List.mem_of_getLast? hl)
    simp only [scan_eq _ _ hs l h, Option.bind_eq_bind, Option.bind_some]
    cases h1 : Pedo.scan last.ts AVERAGING_TIME_INTERVAL_MS l with
    | none => cases Pedo.scan last.ts FILTER_TIME_INTERVAL_MS l <;> rfl
    | some aver =>
      cases h2 : Pedo.scan last.ts FILTER_TIME_INTERVAL_MS l with
      | none => rfl
      | some filt =>
        dsimp only
        split_ifs with hz
        · rfl
        · push Not at hz
          have z1 : (aver.length : ℝ) ≠ 0 := by exact_mod_cast hz.1
          have z2 : (filt.length : ℝ) ≠ 0 := by exact_mod_cast hz.2
          simp only [sumMagn_eq, div_eq z1, div_eq z2, Option.bind_some]

theorem popOld_eq {α : Type} (ts : α → Int) (limit : Int) (l : List α) (h : ∀ a ∈ l, Safe (ts a)) :
    popOld ts limit l = some (Pedo.popOld ts limit l) := by
  induction l with
  | nil => rfl
  | cons a l ih =>
    simp only [popOld, Pedo.popOld, sub_eq (h _ (List.getLast_mem _)) (h a List.mem_cons_self), Option.bind_eq_bind,
      Option.bind_some]
    split_ifs
    · exact ih (fun m hm => h m (List.mem_cons_of_mem _ hm))
    · rfl

theorem popOld_sub {α : Type} (ts : α → Int) (limit : Int) (l l' : List α) (h : Pedo.popOld ts limit l = some l') :
    ∀ a ∈ l', a ∈ l := by
  induction l with
  | nil => simp [Pedo.popOld] at h
  | cons a l ih =>
    unfold Pedo.popOld at h
    split_ifs at h
    · intro b hb; exact List.mem_cons_of_mem _ (ih h b hb)
    · cases h; exact fun b hb => hb

/-- What the pedometer's state must satisfy. -/
structure PedoSafe (s : PedoState) : Prop where
  accel : SafeAll s.accel
  mags : ∀ m ∈ s.mags, Safe m.ts
  possible : Safe s.possibleTs
  same : s.stepTime = s.possibleTs
  idle : s.isStep = false
  times : ∀ t ∈ s.times, 0 ≤ t ∧ t < 2000
  count : s.times.length ≤ 50

theorem pedo_init : PedoSafe {} :=
  ⟨by simp [SafeAll], by simp, safe_neg_one, rfl, rfl, by simp, by simp⟩

theorem filtered_ts {l : List SensorMeasurement} {x : Magnitude} (h : SafeAll l)
    (hx : calculateFilteredAccMagnitudes l = some x) : Safe x.ts := by
  unfold calculateFilteredAccMagnitudes at hx
  cases hl : l.getLast? with
  | none => rw [hl] at hx; simp at hx
  | some last =>
    have hs : Safe last.ts := h _ (List.mem_of_getLast? hl)
    rw [hl] at hx
    dsimp only at hx
    split at hx
    · split_ifs at hx <;> cases hx
      · exact safe_zero
      · exact hs
    · cases hx

theorem push_eq {s : PedoState} {m : SensorMeasurement} (h : PedoSafe s) (hm : Safe m.ts) :
    push s m = some (Pedo.push s m) := by
  have ha : SafeAll (s.accel ++ [m]) := by
    intro a ha
    rcases List.mem_append.mp ha with h1 | h1
    · exact h.accel a h1
    · rw [List.mem_singleton] at h1; rw [h1]; exact hm
  unfold push Pedo.push
  dsimp only
  rw [filtered_eq _ ha]
  cases calculateFilteredAccMagnitudes (s.accel ++ [m]) with
  | none => rfl
  | some x =>
    rw [bind2_some, popOld_eq _ _ _ ha]
    dsimp only
    cases Pedo.popOld Stamped.ts (2 * AVERAGING_TIME_INTERVAL_MS) (s.accel ++ [m]) <;> rfl

theorem push_safe {s s' : PedoState} {m : SensorMeasurement} (h : PedoSafe s) (hm : Safe m.ts)
    (hp : Pedo.push s m = some s') : PedoSafe s' := by
  have ha : SafeAll (s.accel ++ [m]) := by
    intro a ha
    rcases List.mem_append.mp ha with h1 | h1
    · exact h.accel a h1
    · rw [List.mem_singleton] at h1; rw [h1]; exact hm
  unfold Pedo.push at hp
  dsimp only at hp
  cases hx : calculateFilteredAccMagnitudes (s.accel ++ [m]) with
  | none => rw [hx] at hp; cases hp
  | some x =>
    rw [hx] at hp
    dsimp only at hp
    cases hq : Pedo.popOld Stamped.ts (2 * AVERAGING_TIME_INTERVAL_MS) (s.accel ++ [m]) with
    | none => rw [hq] at hp; cases hp
    | some acc =>
      rw [hq] at hp
      cases hp
      refine ⟨fun a h1 => ha a (popOld_sub _ _ _ _ hq a h1), ?_, h.possible, h.same, h.idle, h.times, h.count⟩
      dsimp only
      split_ifs
      · intro a h1
        rcases List.mem_append.mp h1 with h1 | h1
        · exact h.mags a h1
        · rw [List.mem_singleton] at h1; rw [h1]; exact filtered_ts ha hx
      · exact h.mags

theorem update_eq {s : PedoState} {m : SensorMeasurement} (h : PedoSafe s) (hm : Safe m.ts) :
    updatePedometer s m = some (Pedo.update s m) := by
  unfold updatePedometer Pedo.update
  dsimp only
  split_ifs
  · exact push_eq ⟨h.accel, h.mags, h.possible, h.same, h.idle, h.times, h.count⟩ hm
  · rfl

theorem update_safe {s s' : PedoState} {m : SensorMeasurement} (h : PedoSafe s) (hm : Safe m.ts)
    (hp : Pedo.update s m = some s') : PedoSafe s' := by
  have h' : PedoSafe { s with magSize := max s.mags.length 1 } :=
    ⟨h.accel, h.mags, h.possible, h.same, h.idle, h.times, h.count⟩
  unfold Pedo.update at hp
  dsimp only at hp
  split_ifs at hp
  · exact push_safe h' hm hp
  · cases hp; exact h'

theorem leftBorder_eq (mags : List Magnitude) (h : ∀ m ∈ mags, Safe m.ts) (rts T : Int) (hr : Safe rts) (n : ℕ) :
    leftBorder mags rts T n = some (Pedo.leftBorder mags rts T n) := by
  induction n with
  | zero => rfl
  | succ n ih =>
    unfold leftBorder Pedo.leftBorder
    cases hm : mags[n + 1]? with
    | none => rfl
    | some m =>
      simp only [sub_eq hr (h m (List.mem_of_getElem? hm)), Option.bind_eq_bind, Option.bind_some]
      split_ifs
      · exact ih
      · rfl

theorem stepLength_eq (mags : List Magnitude) (h : ∀ m ∈ mags, Safe m.ts) (T : Int) (i : ℕ) :
    stepLength mags T i = some (calculateStepLength mags T i) := by
  unfold stepLength calculateStepLength
  cases hm : mags[i]? with
  | none => rfl
  | some r =>
    dsimp only
    rw [leftBorder_eq mags h r.ts T (h r (List.mem_of_getElem? hm)) i]
    cases Pedo.leftBorder mags r.ts T i with
    | none => rfl
    | some left =>
      rw [bind2_some]
      have h1 : 0 ≤ Pedo.maxElement r ((mags.drop left).take (i - left)) - Pedo.minElement r ((mags.drop left).take (i - left)) := by
        have := min_le_max r ((mags.drop left).take (i - left)); linarith
      have h2 : 0 ≤ root (Pedo.maxElement r ((mags.drop left).take (i - left)) -
          Pedo.minElement r ((mags.drop left).take (i - left))) := by
        rw [root_eq h1]; exact Real.sqrt_nonneg _
      simp only [sqrt_eq' h1, sqrt_eq' h2, Option.bind_eq_bind, Option.bind_some]

theorem sum_narrow (l : List Int) (h : ∀ t ∈ l, 0 ≤ t ∧ t < 2000) (a : Int) (ha : 0 ≤ a)
    (hb : a + 2000 * l.length < 2 ^ 31) :
    l.foldlM (fun s t => narrow (s + t)) a = some (l.foldl (· + ·) a) := by
  induction l generalizing a with
  | nil => rfl
  | cons t l ih =>
    obtain ⟨h1, h2⟩ := h t List.mem_cons_self
    rw [List.length_cons] at hb
    push_cast at hb
    have hn : narrow (a + t) = some (a + t) := by
      unfold narrow
      rw [if_pos]
      unfold InInt
      omega
    rw [List.foldlM_cons, hn, List.foldl_cons]
    exact ih (fun t ht => h t (List.mem_cons_of_mem _ ht)) (a + t) (by omega) (by omega)

theorem between_eq (times : List Int) (h : ∀ t ∈ times, 0 ≤ t ∧ t < 2000) (hc : times.length ≤ 50) :
    timeBetweenSteps times = some (Pedo.timeBetweenSteps times) := by
  unfold timeBetweenSteps Pedo.timeBetweenSteps
  dsimp only
  split_ifs
  · rw [sum_narrow times h 0 le_rfl (by omega)]
    rfl
  · rfl

/-- The state during the loop. -/
structure LoopSafe (s : PedoState) : Prop where
  accel : SafeAll s.accel
  mags : ∀ m ∈ s.mags, Safe m.ts
  possible : Safe s.possibleTs
  same : s.stepTime = s.possibleTs
  idle : s.isStep = false
  times : ∀ t ∈ s.times, 0 ≤ t ∧ t < 2000

theorem stepBody_eq (b : ℝ) (i : ℕ) (st : PedoState × List Step) (h : LoopSafe st.1) :
    stepBody b i st = some (Pedo.stepBody b i st) := by
  obtain ⟨s, steps⟩ := st
  unfold stepBody Pedo.stepBody
  dsimp only
  by_cases hi : i = 0
  · rw [if_pos hi, if_pos hi]
  rw [if_neg hi, if_neg hi]
  cases h1 : s.mags[i]? with
  | none => rfl
  | some cur =>
    cases h2 : s.mags[i - 1]? with
    | none => rfl
    | some prev =>
      have hcur : Safe cur.ts := h.mags cur (List.mem_of_getElem? h1)
      have hst : Safe s.stepTime := by rw [h.same]; exact h.possible
      simp only [sub_eq hcur h.possible, Option.bind_eq_bind, Option.bind_some]
      by_cases hc : s.isStep = false ∧ prev.value < MINIMAL_THRESHOLD_VALUE ∧ cur.value > MINIMAL_THRESHOLD_VALUE ∧
        cur.ts - s.possibleTs > MIN_TIME_BETWEEN_STEPS_MS ∧ b > 0
      · simp only [if_pos hc, stepLength_eq s.mags h.mags, if_true]
        cases calculateStepLength s.mags UPDATE_TIME_INTERVAL_MS i with
        | none => rfl
        | some len => simp only [bind2_some, sub_eq hcur hst, Option.bind_some]
      · have hid : s.isStep ≠ true := by have := h.idle; dsimp only at this; simp [this]
        simp only [if_neg hc, if_neg hid]

theorem stepBody_safe (b : ℝ) (i : ℕ) (st st' : PedoState × List Step) (h : LoopSafe st.1)
    (hs : Pedo.stepBody b i st = some st') : LoopSafe st'.1 := by
  obtain ⟨s, steps⟩ := st
  unfold Pedo.stepBody at hs
  dsimp only at hs
  by_cases hi : i = 0
  · rw [if_pos hi] at hs; cases hs
  rw [if_neg hi] at hs
  cases h1 : s.mags[i]? with
  | none => rw [h1] at hs; cases hs
  | some cur =>
    cases h2 : s.mags[i - 1]? with
    | none => rw [h1, h2] at hs; cases hs
    | some prev =>
      have hcur : Safe cur.ts := h.mags cur (List.mem_of_getElem? h1)
      rw [h1, h2] at hs
      dsimp only at hs
      by_cases hc : s.isStep = false ∧ prev.value < MINIMAL_THRESHOLD_VALUE ∧ cur.value > MINIMAL_THRESHOLD_VALUE ∧
        cur.ts - s.possibleTs > MIN_TIME_BETWEEN_STEPS_MS ∧ b > 0
      · simp only [if_pos hc, if_true] at hs
        cases hl : calculateStepLength s.mags UPDATE_TIME_INTERVAL_MS i with
        | none => rw [hl] at hs; cases hs
        | some len =>
          rw [hl] at hs
          cases hs
          refine ⟨h.accel, h.mags, hcur, rfl, rfl, ?_⟩
          dsimp only
          split_ifs with h3
          · intro t ht
            rcases List.mem_append.mp ht with h4 | h4
            · exact h.times t h4
            · rw [List.mem_singleton] at h4
              have h5 := hc.2.2.2.1
              have h6 := h.same
              dsimp only at h6 h3
              rw [show MIN_TIME_BETWEEN_STEPS_MS = 300 from rfl] at h5
              rw [show MAX_STEP_TIME = 2000 from rfl] at h3
              constructor <;> omega
          · exact h.times
      · have hid : s.isStep ≠ true := by have := h.idle; dsimp only at this; simp [this]
        simp only [if_neg hc, if_neg hid] at hs
        cases hs
        exact h

theorem stepLoop_eq (b : ℝ) (n i : ℕ) (st : PedoState × List Step) (h : LoopSafe st.1) :
    stepLoop b i n st = some (Pedo.stepLoop b i n st) ∧ ∀ st', Pedo.stepLoop b i n st = some st' → LoopSafe st'.1 := by
  induction n generalizing i st with
  | zero => exact ⟨rfl, fun st' hs => by cases hs; exact h⟩
  | succ n ih =>
    simp only [stepLoop, Pedo.stepLoop, stepBody_eq b i st h]
    cases hb : Pedo.stepBody b i st with
    | none => exact ⟨rfl, fun st' hs => by cases hs⟩
    | some st1 =>
      have := ih (i + 1) st1 (stepBody_safe b i st st1 h hb)
      exact this

theorem steps_eq {s : PedoState} (h : PedoSafe s) : steps s = some (calculateSteps s) := by
  unfold steps calculateSteps
  split_ifs
  · rfl
  · obtain ⟨h1, h2⟩ := stepLoop_eq (Pedo.timeBetweenSteps s.times) (s.mags.length - s.magSize) s.magSize (s, [])
      ⟨h.accel, h.mags, h.possible, h.same, h.idle, h.times⟩
    simp only [between_eq s.times h.times h.count, Option.bind_eq_bind, Option.bind_some, h1]
    cases hl : Pedo.stepLoop (Pedo.timeBetweenSteps s.times) s.magSize (s.mags.length - s.magSize) (s, []) with
    | none => rfl
    | some st =>
      obtain ⟨s1, out⟩ := st
      rw [bind2_some, popOld_eq _ _ _ (h2 _ hl).mags]
      dsimp only
      cases Pedo.popOld Magnitude.ts (2 * UPDATE_TIME_INTERVAL_MS) s1.mags <;> rfl

theorem steps_safe {s s' : PedoState} {out : List Step} (h : PedoSafe s) (hs : calculateSteps s = some (s', out)) :
    PedoSafe s' := by
  unfold calculateSteps at hs
  split_ifs at hs
  · cases hs; exact h
  · obtain ⟨-, h2⟩ := stepLoop_eq (Pedo.timeBetweenSteps s.times) (s.mags.length - s.magSize) s.magSize (s, [])
      ⟨h.accel, h.mags, h.possible, h.same, h.idle, h.times⟩
    cases hl : Pedo.stepLoop (Pedo.timeBetweenSteps s.times) s.magSize (s.mags.length - s.magSize) (s, []) with
    | none => rw [hl] at hs; cases hs
    | some st =>
      obtain ⟨s1, o1⟩ := st
      rw [hl] at hs
      dsimp only at hs
      have hf := h2 _ hl
      cases hp : Pedo.popOld Magnitude.ts (2 * UPDATE_TIME_INTERVAL_MS) s1.mags with
      | none => rw [hp] at hs; cases hs
      | some mags =>
        rw [hp] at hs
        cases hs
        refine ⟨hf.accel, fun m hm => hf.mags m (popOld_sub _ _ _ _ hp m hm), hf.possible, hf.same, hf.idle,
          fun t ht => hf.times t (List.mem_of_mem_drop ht), ?_⟩
        simp only [trimTimes, List.length_drop, MAXIMUM_NUMBER_OF_STEPS]
        omega

/-! ## Complementary filter -/

theorem vnormalized_ok (v : Vector3d) : vnormalized v = some (Fusion.vnormalized v) := by
  unfold vnormalized
  simp only [magnitude_eq, Option.bind_eq_bind, Option.bind_some]
  rw [Fusion.vnormalized_eq]
  split_ifs with h
  · have h0 : Pedo.magnitude v ≠ 0 := by
      intro h0; rw [h0, abs_zero] at h; exact absurd h (not_lt.mpr epsilon_pos.le)
    simp only [div_eq' h0, Option.bind_some]
  · rfl

theorem qnormalized_ok (q : Quat) : qnormalized q = some q.normalized := by
  unfold qnormalized
  rw [sqrt_eq (by nlinarith [mul_self_nonneg q.w, mul_self_nonneg q.x, mul_self_nonneg q.y, mul_self_nonneg q.z])]
  simp only [Option.bind_eq_bind, Option.bind_some]
  rw [Quat.normalized_div]
  dsimp only
  split_ifs with h
  · have h0 : Real.sqrt (q.w * q.w + q.x * q.x + q.y * q.y + q.z * q.z) ≠ 0 := by
      intro h0; rw [h0, abs_zero] at h; exact absurd h (not_lt.mpr epsilon_pos.le)
    simp only [div_eq' h0, Option.bind_some]
  · rfl

theorem toEuler_ok (q : Quat) : toEuler q = some (Fusion.toEuler q) := by
  unfold toEuler Fusion.toEuler
  dsimp only
  by_cases h : |2 * (q.w * q.y - q.z * q.x)| ≥ 1
  · simp only [if_pos h, Option.bind_eq_bind, Option.bind_some]
  · simp only [if_neg h, asin_eq (not_le.mp h).le, Option.bind_eq_bind, Option.bind_some]

theorem updateQuaternion_ok (q : Quat) (v : Vector3d) : updateQuaternion q v = some (Fusion.updateQuaternion q v) :=
  qnormalized_ok _

theorem lowPass_ok (prev cur : SensorMeasurement) (h1 : Safe prev.ts) (h2 : Safe cur.ts) :
    lowPassFilter prev cur = some (Fusion.lowPassFilter prev cur) := by
  unfold lowPassFilter lpfAlpha Fusion.lowPassFilter Fusion.lpfAlpha
  have h0 : (1.0 + max (((cur.ts - prev.ts : Int) : ℝ) / 1000.0) 0.02 : ℝ) ≠ 0 := by
    have : (0.02 : ℝ) ≤ max (((cur.ts - prev.ts : Int) : ℝ) / 1000.0) 0.02 := le_max_right _ _
    intro h
    norm_num at h this
    have h3 : (1 / 50 : ℝ) ≤ max (((cur.ts : ℝ) - prev.ts) / 1000) (1 / 50) := le_max_right _ _
    linarith
  simp only [sub_eq h2 h1, div_eq' h0, Option.bind_eq_bind, Option.bind_some]

theorem fusedAzimuth_ok (s : CfState) : fusedAzimuth s = some (getFusedAzimuth s) := by
  simp [fusedAzimuth, toEuler_ok, getFusedAzimuth]

theorem gyroscope_ok (s : CfState) (m : SensorMeasurement) (h1 : Safe s.lastGyroTs) (h2 : Safe m.ts) :
    updateUsingGyroscope s m = some (Fusion.updateUsingGyroscope s m) := by
  simp only [updateUsingGyroscope, Fusion.updateUsingGyroscope, sub_eq h2 h1, updateQuaternion_ok, Option.bind_eq_bind,
    Option.bind_some]

theorem accelerometer_ok (c : CfConfig) (s : CfState) (m : SensorMeasurement) :
    updateUsingAccelerometer c s m = some (Fusion.updateUsingAccelerometer c s m) := by
  simp only [updateUsingAccelerometer, Fusion.updateUsingAccelerometer, vnormalized_ok, updateQuaternion_ok,
    Option.bind_eq_bind, Option.bind_some]

theorem magnetometer_ok (c : CfConfig) (s : CfState) (m : SensorMeasurement) :
    updateUsingMagnetometer c s m = some (Fusion.updateUsingMagnetometer c s m) := by
  simp only [updateUsingMagnetometer, Fusion.updateUsingMagnetometer, vnormalized_ok, magnitude_eq, Option.bind_eq_bind,
    Option.bind_some]
  split_ifs
  · rfl
  · rw [sqrt_eq (add_nonneg (mul_self_nonneg _) (mul_self_nonneg _))]
    simp only [updateQuaternion_ok, Option.bind_some]

theorem magneticAzimuth_ok (q : Quat) (m : SensorMeasurement) :
    magneticAzimuth q m = some (calculateMagneticAzimuth q m) := by
  simp only [magneticAzimuth, calculateMagneticAzimuth, toEuler_ok, qnormalized_ok, vnormalized_ok, Option.bind_eq_bind,
    Option.bind_some]

/-- What the filter's state must satisfy. -/
structure FilterSafe (s : CfState) : Prop where
  current : Safe s.currentTs
  gyro : Safe s.lastGyroTs
  azimuth : Safe s.lastDeviceAzimuthTs
  magn : Safe s.magnLowPassed.ts
  accel : Safe s.accelLowPassed.ts

theorem filter_ok (c : CfConfig) (s : CfState) (m : SensorMeasurement) (h : FilterSafe s) (hm : Safe m.ts) :
    updateFilter c s m = some (cfUpdate c s m) := by
  unfold updateFilter cfUpdate
  cases ht : m.data.type <;> dsimp only
  case ACCELEROMETER =>
    simp only [lowPass_ok _ _ h.accel hm, accelerometer_ok, Option.bind_eq_bind, Option.bind_some]
  case MAGNETOMETER =>
    simp only [lowPass_ok _ _ h.magn hm, Option.bind_eq_bind, Option.bind_some]
    split_ifs with hg <;> simp only [magnetometer_ok, magneticAzimuth_ok, Option.bind_some]
  case GYROSCOPE =>
    by_cases hg : s.lastGyroTs = -1
    · simp only [if_pos hg]
      rw [gyroscope_ok _ _ hm hm]
      simp only [fusedAzimuth_ok, Option.bind_eq_bind, Option.bind_some]
    · simp only [if_neg hg]
      rw [gyroscope_ok _ _ h.gyro hm]
      simp only [fusedAzimuth_ok, Option.bind_eq_bind, Option.bind_some]
  all_goals rfl

theorem filter_safe (c : CfConfig) (s : CfState) (m : SensorMeasurement) (h : FilterSafe s) (hm : Safe m.ts) :
    FilterSafe (cfUpdate c s m) := by
  unfold cfUpdate
  cases ht : m.data.type <;> dsimp only
  case ACCELEROMETER => exact ⟨hm, h.gyro, h.azimuth, h.magn, hm⟩
  case MAGNETOMETER =>
    refine ⟨hm, ?_, ?_, ?_, ?_⟩
    all_goals
      dsimp only [Fusion.updateUsingMagnetometer]
      split_ifs <;> first | exact h.gyro | exact h.azimuth | exact hm | exact h.accel
  case GYROSCOPE =>
    refine ⟨hm, hm, ?_, ?_, ?_⟩
    all_goals
      dsimp only [Fusion.updateUsingGyroscope]
      split_ifs <;> first | exact h.azimuth | exact h.magn | exact h.accel
  case ORIENTATION => exact ⟨hm, h.gyro, hm, h.magn, h.accel⟩
  all_goals exact ⟨hm, h.gyro, h.azimuth, h.magn, h.accel⟩

/-! ## Sensor fusion -/

structure FusionSafe (s : FusionState) : Prop where
  filter : FilterSafe s.filter
  pedometer : PedoSafe s.pedometer

theorem displacement_eq (c : FusionConfig) (s : FusionState) (m : SensorMeasurement) (ts : Int) (h : FusionSafe s)
    (hm : Safe m.ts) : displacement c s m ts = some (calculateDisplacement c s m ts) := by
  unfold displacement calculateDisplacement
  rw [update_eq h.pedometer hm]
  cases hu : Pedo.update s.pedometer m with
  | none => rfl
  | some ped =>
    rw [bind2_some, steps_eq (update_safe h.pedometer hm hu)]
    cases hs : calculateSteps ped with
    | none => simp [hs]
    | some r =>
      obtain ⟨p1, out⟩ := r
      have hf := filter_safe c.cf s.filter m h.filter hm
      have ho : isDeviceAzimuthOutdated c.cf (cfUpdate c.cf s.filter m) =
          some (Fusion.isDeviceAzimuthOutdated c.cf (cfUpdate c.cf s.filter m)) := by
        simp only [isDeviceAzimuthOutdated, Fusion.isDeviceAzimuthOutdated, sub_eq hf.current hf.azimuth, Option.bind_eq_bind,
          Option.bind_some]
      simp only [bind2_some, filter_ok c.cf s.filter m h.filter hm, fusedAzimuth_ok, ho, Option.bind_eq_bind, Option.bind_some,
        hs]
      split_ifs <;> rfl

theorem displacement_safe (c : FusionConfig) (s s' : FusionState) (info : MotionInfo) (m : SensorMeasurement) (ts : Int)
    (h : FusionSafe s) (hm : Safe m.ts) (hd : calculateDisplacement c s m ts = some (s', info)) :
    FusionSafe s' ∧ (info.lastMotionTs = ts ∨ info.lastMotionTs = 0) := by
  unfold calculateDisplacement at hd
  cases hu : Pedo.update s.pedometer m with
  | none => rw [hu] at hd; cases hd
  | some ped =>
    rw [hu] at hd
    dsimp only at hd
    cases hs : calculateSteps ped with
    | none => rw [hs] at hd; cases hd
    | some r =>
      obtain ⟨p1, out⟩ := r
      rw [hs] at hd
      dsimp only at hd
      have hf := filter_safe c.cf s.filter m h.filter hm
      have hp := steps_safe (update_safe h.pedometer hm hu) hs
      split_ifs at hd <;> cases hd <;>
        exact ⟨⟨hf, hp⟩, by first | exact Or.inl rfl | exact Or.inr rfl⟩

end Verif.Checked
