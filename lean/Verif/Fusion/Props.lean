import Verif.Fusion.Spec
import Verif.Pedo.Props
import Mathlib.Tactic.Linarith
import Mathlib.Tactic.Positivity
import Mathlib.Tactic.FieldSimp
import Mathlib.Tactic.LinearCombination

/-!
# Property theorems for the complementary filter and the sensor fusion: C54 to C57, C59
-/

namespace Verif.Fusion

open Verif Verif.Pedo

/-! ## C54 -/

theorem sub_spec (n : ℕ) (x : ℝ) (h : x < Real.pi + 2 * Real.pi * n) :
    SubRuns x (subLoop n x) ∧ (∃ k : ℤ, subLoop n x = x + 2 * Real.pi * k) ∧ subLoop n x < Real.pi ∧
      (x < Real.pi → subLoop n x = x) ∧ (-Real.pi ≤ x → -Real.pi ≤ subLoop n x) := by
  induction n generalizing x with
  | zero =>
    simp only [Nat.cast_zero, mul_zero, add_zero] at h
    exact ⟨SubRuns.done (not_le.mpr h), ⟨0, by simp [subLoop]⟩, h, fun _ => rfl, fun h => h⟩
  | succ n ih =>
    unfold subLoop
    by_cases hx : x ≥ Real.pi
    · rw [if_pos hx]
      obtain ⟨h1, ⟨k, h2⟩, h3, h4, h5⟩ := ih (x - 2 * Real.pi) (by
        push_cast at h
        linarith)
      refine ⟨SubRuns.again hx h1, ⟨k - 1, ?_⟩, h3, fun h => absurd h (not_lt.mpr hx), fun _ => h5 (by linarith)⟩
      rw [h2]
      push_cast
      ring
    · rw [if_neg hx]
      exact ⟨SubRuns.done hx, ⟨0, by simp⟩, not_le.mp hx, fun _ => rfl, fun h => h⟩

theorem add_spec (n : ℕ) (x : ℝ) (h : -Real.pi - 2 * Real.pi * n ≤ x) :
    AddRuns x (addLoop n x) ∧ (∃ k : ℤ, addLoop n x = x + 2 * Real.pi * k) ∧ -Real.pi ≤ addLoop n x ∧
      (x < Real.pi → addLoop n x < Real.pi) ∧ (-Real.pi ≤ x → addLoop n x = x) := by
  induction n generalizing x with
  | zero =>
    simp only [Nat.cast_zero, mul_zero, sub_zero] at h
    exact ⟨AddRuns.done (not_lt.mpr h), ⟨0, by simp [addLoop]⟩, h, fun h => h, fun _ => rfl⟩
  | succ n ih =>
    unfold addLoop
    by_cases hx : x < -Real.pi
    · rw [if_pos hx]
      obtain ⟨h1, ⟨k, h2⟩, h3, h4, h5⟩ := ih (x + 2 * Real.pi) (by
        push_cast at h
        linarith)
      refine ⟨AddRuns.again hx h1, ⟨k + 1, ?_⟩, h3, fun _ => h4 (by linarith), fun h => absurd hx (not_lt.mpr h)⟩
      rw [h2]
      push_cast
      ring
    · rw [if_neg hx]
      exact ⟨AddRuns.done hx, ⟨0, by simp⟩, not_lt.mp hx, fun h => h, fun _ => rfl⟩

theorem fuel_enough (x : ℝ) : |x| < 2 * Real.pi * ((⌈|x|⌉₊ + 1 : ℕ) : ℝ) := by
  have h1 : |x| ≤ (⌈|x|⌉₊ : ℝ) := Nat.le_ceil _
  have h2 : (2 : ℝ) ≤ Real.pi := Real.two_le_pi
  have h3 : (0 : ℝ) ≤ (⌈|x|⌉₊ : ℝ) := Nat.cast_nonneg _
  push_cast
  nlinarith

/-- **C54.** The two loops of `to_minus_Pi_Pi` end for every real angle, with the result of the model. -/
theorem C54_terminates (x : ℝ) : ∃ y, SubRuns x y ∧ AddRuns y (toMinusPiPi x) := by
  have hf := fuel_enough x
  have hpi := Real.pi_pos
  obtain ⟨h1, -, -, h4, h5⟩ := sub_spec (⌈|x|⌉₊ + 1) x (by have := le_abs_self x; linarith)
  obtain ⟨g1, -, -, -, -⟩ := add_spec (⌈|x|⌉₊ + 1) (subLoop (⌈|x|⌉₊ + 1) x) (by
    by_cases h : x < Real.pi
    · rw [h4 h]
      have := neg_abs_le x
      linarith
    · have h0 : (0 : ℝ) ≤ |x| := abs_nonneg x
      have := h5 (by linarith [not_lt.mp h])
      linarith)
  exact ⟨_, h1, g1⟩

/-- The loops are deterministic, so whatever a run of `to_minus_Pi_Pi` ends with is the modelled value. -/
theorem C54_unique (x y z : ℝ) (h1 : SubRuns x y) (h2 : AddRuns y z) : z = toMinusPiPi x := by
  obtain ⟨y', g1, g2⟩ := C54_terminates x
  have hsub : ∀ a b c, SubRuns a b → SubRuns a c → b = c := by
    intro a b c hb hc
    induction hb with
    | done h =>
      cases hc with
      | done _ => rfl
      | again h' _ => exact absurd h' h
    | again h _ ih =>
      cases hc with
      | done h' => exact absurd h h'
      | again _ r => exact ih r
  have hadd : ∀ a b c, AddRuns a b → AddRuns a c → b = c := by
    intro a b c hb hc
    induction hb with
    | done h =>
      cases hc with
      | done _ => rfl
      | again h' _ => exact absurd h' h
    | again h _ ih =>
      cases hc with
      | done h' => exact absurd h h'
      | again _ r => exact ih r
  have := hsub x y y' h1 g1
  subst this
  exact hadd y z _ h2 g2

/-- **C54.** The result lies in [-π, π) and differs from the argument by a whole number of turns;
an angle in the range is unchanged. -/
theorem C54_range (x : ℝ) :
    -Real.pi ≤ toMinusPiPi x ∧ toMinusPiPi x < Real.pi ∧ SameAngle (toMinusPiPi x) x ∧
      (-Real.pi ≤ x → x < Real.pi → toMinusPiPi x = x) := by
  have hf := fuel_enough x
  have hpi := Real.pi_pos
  obtain ⟨h1, ⟨k, h2⟩, h3, h4, h5⟩ := sub_spec (⌈|x|⌉₊ + 1) x (by have := le_abs_self x; linarith)
  obtain ⟨g1, ⟨k', g2⟩, g3, g4, g5⟩ := add_spec (⌈|x|⌉₊ + 1) (subLoop (⌈|x|⌉₊ + 1) x) (by
    by_cases h : x < Real.pi
    · rw [h4 h]
      have := neg_abs_le x
      linarith
    · have h0 : (0 : ℝ) ≤ |x| := abs_nonneg x
      have := h5 (by linarith [not_lt.mp h])
      linarith)
  refine ⟨g3, g4 h3, ⟨k + k', ?_⟩, ?_⟩
  · unfold toMinusPiPi
    dsimp only
    rw [g2, h2]
    push_cast
    ring
  · intro a b
    unfold toMinusPiPi
    dsimp only
    rw [h4 b] at g5 ⊢
    exact g5 a

/-- Two angles that differ by whole turns are normalised to the same value. -/
theorem C54_canonical (x y : ℝ) (h : SameAngle x y) : toMinusPiPi x = toMinusPiPi y := by
  obtain ⟨a1, a2, ⟨i, a3⟩, -⟩ := C54_range x
  obtain ⟨b1, b2, ⟨j, b3⟩, -⟩ := C54_range y
  obtain ⟨k, hk⟩ := h
  have hpi := Real.pi_pos
  have he : toMinusPiPi x - toMinusPiPi y = 2 * Real.pi * ((i + k - j : ℤ) : ℝ) := by
    rw [a3, b3, hk]
    push_cast
    ring
  have hlt1 : ((i + k - j : ℤ) : ℝ) < 1 := by
    by_contra hc
    have h6 : (1 : ℝ) ≤ ((i + k - j : ℤ) : ℝ) := not_lt.mp hc
    have : 2 * Real.pi * 1 ≤ 2 * Real.pi * ((i + k - j : ℤ) : ℝ) :=
      mul_le_mul_of_nonneg_left h6 (by positivity)
    linarith
  have hlt2 : (-1 : ℝ) < ((i + k - j : ℤ) : ℝ) := by
    by_contra hc
    have h6 : ((i + k - j : ℤ) : ℝ) ≤ -1 := not_lt.mp hc
    have : 2 * Real.pi * ((i + k - j : ℤ) : ℝ) ≤ 2 * Real.pi * (-1) :=
      mul_le_mul_of_nonneg_left h6 (by positivity)
    linarith
  have h0 : i + k - j = 0 := by
    have h1 : (i + k - j : ℤ) < 1 := by exact_mod_cast hlt1
    have h2 : (-1 : ℤ) < i + k - j := by exact_mod_cast hlt2
    omega
  rw [h0] at he
  simp at he
  linarith

example : toMinusPiPi (7 * Real.pi) = -Real.pi := by
  rw [C54_canonical (7 * Real.pi) (-Real.pi) ⟨4, by push_cast; ring⟩]
  exact (C54_range _).2.2.2 (le_refl _) (by have := Real.pi_pos; linarith)

/-! ## C55 -/

theorem normSq_mul (p q : Quat) : (p.mul q).normSq = p.normSq * q.normSq := by
  unfold Quat.normSq Quat.mul
  ring

theorem normSq_conj (p : Quat) : p.conj.normSq = p.normSq := by
  unfold Quat.normSq Quat.conj
  ring

theorem update_eq_mul (q : Quat) (v : Vector3d) :
    q.add ((q.mul (Quat.ofVec v)).scale 0.5) = q.mul ⟨1, v.x / 2, v.y / 2, v.z / 2⟩ := by
  unfold Quat.add Quat.mul Quat.scale Quat.ofVec
  ext <;> dsimp only <;> ring

theorem epsilon_lt_one : EPSILON < 1 := by
  unfold EPSILON
  rw [show ((2 : ℝ) ^ (-52 : ℤ)) = 1 / 2 ^ 52 by norm_num [zpow_neg]]
  norm_num

theorem normalized_eq (q : Quat) (h : 1 ≤ q.normSq) :
    q.normalized = ⟨q.w / Real.sqrt q.normSq, q.x / Real.sqrt q.normSq, q.y / Real.sqrt q.normSq,
      q.z / Real.sqrt q.normSq⟩ := by
  rw [Quat.normalized_div]
  have e : q.w * q.w + q.x * q.x + q.y * q.y + q.z * q.z = q.normSq := by unfold Quat.normSq; ring
  dsimp only
  rw [e]
  have h1 : 1 ≤ Real.sqrt q.normSq := by rw [Real.one_le_sqrt]; exact h
  rw [if_pos]
  rw [abs_of_nonneg (Real.sqrt_nonneg _)]
  linarith [epsilon_lt_one]

theorem normalized_normSq (q : Quat) (h : 1 ≤ q.normSq) : q.normalized.normSq = 1 := by
  rw [normalized_eq q h]
  have h1 : 0 < Real.sqrt q.normSq := Real.sqrt_pos.mpr (by linarith)
  have h2 : Real.sqrt q.normSq ^ 2 = q.normSq := Real.sq_sqrt (by linarith)
  unfold Quat.normSq at *
  dsimp only at *
  rw [div_pow, div_pow, div_pow, div_pow, ← add_div, ← add_div, ← add_div, h2]
  exact div_self (by linarith)

theorem update_pre (q : Quat) (v : Vector3d) (h : q.normSq = 1) :
    1 ≤ (q.add ((q.mul (Quat.ofVec v)).scale 0.5)).normSq := by
  rw [update_eq_mul, normSq_mul, h, one_mul]
  unfold Quat.normSq
  dsimp only
  have := sq_nonneg (v.x / 2)
  have := sq_nonneg (v.y / 2)
  have := sq_nonneg (v.z / 2)
  linarith

theorem update_unit (q : Quat) (v : Vector3d) (h : q.normSq = 1) : (updateQuaternion q v).normSq = 1 :=
  normalized_normSq _ (update_pre q v h)

theorem atan2_range (y x : ℝ) : -Real.pi < atan2 y x ∧ atan2 y x ≤ Real.pi :=
  ⟨Complex.neg_pi_lt_arg _, Complex.arg_le_pi _⟩

/-- The invariant of the filter. -/
structure CfInv (s : CfState) : Prop where
  unit : s.q.normSq = 1
  magn : -Real.pi ≤ s.magneticAzimuth ∧ s.magneticAzimuth < Real.pi
  gyro : -Real.pi ≤ s.gyroHeading ∧ s.gyroHeading < Real.pi

theorem fused_range (s : CfState) : -Real.pi ≤ getFusedAzimuth s ∧ getFusedAzimuth s < Real.pi := by
  unfold getFusedAzimuth toEuler
  dsimp only
  obtain ⟨h1, h2⟩ := atan2_range (2 * (s.q.w * s.q.z + s.q.x * s.q.y)) (1 - 2 * (s.q.y * s.q.y + s.q.z * s.q.z))
  constructor <;> linarith

theorem magnetometer_unit (c : CfConfig) (s : CfState) (m : SensorMeasurement) (h : s.q.normSq = 1) :
    (updateUsingMagnetometer c s m).q.normSq = 1 := by
  unfold updateUsingMagnetometer
  dsimp only
  split_ifs
  · exact h
  · exact update_unit _ _ h

theorem magnetometer_keeps (c : CfConfig) (s : CfState) (m : SensorMeasurement) :
    (updateUsingMagnetometer c s m).gyroHeading = s.gyroHeading ∧
    (updateUsingMagnetometer c s m).lastGyroTs = s.lastGyroTs ∧
    (updateUsingMagnetometer c s m).lastDeviceAzimuthTs = s.lastDeviceAzimuthTs ∧
    (updateUsingMagnetometer c s m).deviceAzimuth = s.deviceAzimuth := by
  unfold updateUsingMagnetometer
  dsimp only
  split_ifs <;> exact ⟨rfl, rfl, rfl, rfl⟩

theorem cfInv_update (c : CfConfig) (s : CfState) (m : SensorMeasurement) (h : CfInv s) : CfInv (cfUpdate c s m) := by
  obtain ⟨h1, h2, h3⟩ := h
  unfold cfUpdate
  cases m.data.type with
  | ACCELEROMETER => exact ⟨update_unit _ _ h1, h2, h3⟩
  | MAGNETOMETER =>
    dsimp only
    split_ifs with hc
    · refine ⟨magnetometer_unit c _ m h1, ?_, ?_⟩
      · exact ⟨(C54_range _).1, (C54_range _).2.1⟩
      · dsimp only
        rw [(magnetometer_keeps c _ m).1]
        exact h3
    · exact ⟨h1, ⟨(C54_range _).1, (C54_range _).2.1⟩, h3⟩
  | GYROSCOPE =>
    dsimp only
    refine ⟨?_, ?_, fused_range _⟩
    · split_ifs
      · exact update_unit _ _ h1
      · exact update_unit _ _ h1
    · split_ifs
      · exact h2
      · exact h2
  | BAROMETER => exact ⟨h1, h2, h3⟩
  | LOCATION => exact ⟨h1, h2, h3⟩
  | ORIENTATION => exact ⟨h1, h2, h3⟩

theorem cfInv_run (c : CfConfig) (j1 j2 : SensorType × Int) (ms : List SensorMeasurement) :
    CfInv (cfRun c j1 j2 ms) := by
  induction ms using List.reverseRecOn with
  | nil =>
    have := Real.pi_pos
    refine ⟨?_, ⟨?_, ?_⟩, ⟨?_, ?_⟩⟩
    · simp [cfRun, cfInit, Quat.one, Quat.normSq]
    all_goals simp [cfRun, cfInit]; try linarith
  | append_singleton ms m ih =>
    unfold cfRun at *
    rw [List.foldl_append]
    exact cfInv_update c _ m ih

/-- **C55.** After any sequence of sensor measurements, for any gains, the orientation is a unit
quaternion, and the fused azimuth, the magnetic azimuth and the gyro heading lie in [-π, π). -/
theorem C55_unit (c : CfConfig) (j1 j2 : SensorType × Int) (ms : List SensorMeasurement) :
    (cfRun c j1 j2 ms).q.normSq = 1 ∧
      (-Real.pi ≤ getFusedAzimuth (cfRun c j1 j2 ms) ∧ getFusedAzimuth (cfRun c j1 j2 ms) < Real.pi) ∧
      (-Real.pi ≤ (cfRun c j1 j2 ms).magneticAzimuth ∧ (cfRun c j1 j2 ms).magneticAzimuth < Real.pi) ∧
      (-Real.pi ≤ (cfRun c j1 j2 ms).gyroHeading ∧ (cfRun c j1 j2 ms).gyroHeading < Real.pi) :=
  have h := cfInv_run c j1 j2 ms
  ⟨h.unit, fused_range _, h.magn, h.gyro⟩

/-! ## C56 -/

theorem gyro_seen (c : CfConfig) (j1 j2 : SensorType × Int) (ms : List SensorMeasurement)
    (hts : ∀ m ∈ ms, m.data.type = SensorType.GYROSCOPE → m.ts ≠ -1) :
    (cfRun c j1 j2 ms).lastGyroTs = (((ms.filter (fun m => m.data.type = SensorType.GYROSCOPE)).getLast?).map
      Stamped.ts).getD (-1) := by
  induction ms using List.reverseRecOn with
  | nil => rfl
  | append_singleton ms m ih =>
    have ih := ih (fun x hx => hts x (List.mem_append_left _ hx))
    unfold cfRun at *
    rw [List.foldl_append, List.filter_append]
    simp only [List.foldl_cons, List.foldl_nil]
    generalize ms.foldl (cfUpdate c) (cfInit j1 j2) = s at *
    unfold cfUpdate
    cases hm : m.data.type with
    | GYROSCOPE =>
      simp [hm, updateUsingGyroscope]
    | ACCELEROMETER => simpa [hm, updateUsingAccelerometer] using ih
    | MAGNETOMETER =>
      have hf : [m].filter (fun m => m.data.type = SensorType.GYROSCOPE) = [] := by simp [hm]
      rw [hf, List.append_nil]
      dsimp only
      split_ifs
      · rw [(magnetometer_keeps c _ m).2.1]
        exact ih
      · exact ih
    | BAROMETER => simpa [hm] using ih
    | LOCATION => simpa [hm] using ih
    | ORIENTATION => simpa [hm] using ih

/-- **C56.** After a gyroscope measurement (time stamps of gyroscope measurements are not -1, the code's
"none yet"), magnetometer measurements change neither the orientation nor what is derived from it. -/
theorem C56_magnetometer (c : CfConfig) (j1 j2 : SensorType × Int) (ms : List SensorMeasurement)
    (hts : ∀ m ∈ ms, m.data.type = SensorType.GYROSCOPE → m.ts ≠ -1)
    (hg : ∃ g ∈ ms, g.data.type = SensorType.GYROSCOPE) (m : SensorMeasurement)
    (hm : m.data.type = SensorType.MAGNETOMETER) :
    (cfRun c j1 j2 (ms ++ [m])).q = (cfRun c j1 j2 ms).q ∧
      getFusedAzimuth (cfRun c j1 j2 (ms ++ [m])) = getFusedAzimuth (cfRun c j1 j2 ms) ∧
      (cfRun c j1 j2 (ms ++ [m])).gyroHeading = (cfRun c j1 j2 ms).gyroHeading := by
  have hs := gyro_seen c j1 j2 ms hts
  have hne : (cfRun c j1 j2 ms).lastGyroTs ≠ -1 := by
    obtain ⟨g, hgm, hgt⟩ := hg
    have hf : ms.filter (fun m => m.data.type = SensorType.GYROSCOPE) ≠ [] := by
      intro h
      have : g ∈ ms.filter (fun m => m.data.type = SensorType.GYROSCOPE) := by simp [hgm, hgt]
      rw [h] at this
      simp at this
    rw [hs, List.getLast?_eq_some_getLast hf]
    have hmem := List.getLast_mem hf
    rw [List.mem_filter] at hmem
    exact hts _ hmem.1 (by simpa using hmem.2)
  have hq : (cfRun c j1 j2 (ms ++ [m])).q = (cfRun c j1 j2 ms).q ∧
      (cfRun c j1 j2 (ms ++ [m])).gyroHeading = (cfRun c j1 j2 ms).gyroHeading := by
    unfold cfRun at *
    rw [List.foldl_append]
    simp only [List.foldl_cons, List.foldl_nil]
    generalize ms.foldl (cfUpdate c) (cfInit j1 j2) = s at *
    unfold cfUpdate
    simp only [hm, if_neg hne]
    trivial
  refine ⟨hq.1, ?_, hq.2⟩
  unfold getFusedAzimuth
  rw [hq.1]

/-! ## C59 -/

/-- **C59.** The gain of the low pass filter lies strictly between 0 and 1, at most 50/51, whatever the
time stamps. -/
theorem C59_gain (t1 t2 : Int) : 0 < lpfAlpha t1 t2 ∧ lpfAlpha t1 t2 < 1 ∧ lpfAlpha t1 t2 ≤ 50 / 51 := by
  unfold lpfAlpha
  dsimp only
  have h := le_max_right (((t2 - t1 : Int) : ℝ) / 1000.0) 0.02
  generalize max (((t2 - t1 : Int) : ℝ) / 1000.0) 0.02 = w at h
  have hw : (0.02 : ℝ) ≤ w := h
  have hpos : (0 : ℝ) < 1.0 + w := by norm_num at hw ⊢; linarith
  refine ⟨by positivity, ?_, ?_⟩
  · rw [div_lt_one hpos]
    norm_num at hw ⊢
    linarith
  · rw [div_le_iff₀ hpos]
    norm_num at hw ⊢
    linarith

theorem between_axis (a p q : ℝ) (h0 : 0 < a) (h1 : a < 1) :
    min p q ≤ p * a + q * (1 - a) ∧ p * a + q * (1 - a) ≤ max p q := by
  have h2 : 0 < 1 - a := by linarith
  constructor
  · have e1 : min p q * a ≤ p * a := mul_le_mul_of_nonneg_right (min_le_left _ _) h0.le
    have e2 : min p q * (1 - a) ≤ q * (1 - a) := mul_le_mul_of_nonneg_right (min_le_right _ _) h2.le
    linarith
  · have e1 : p * a ≤ max p q * a := mul_le_mul_of_nonneg_right (le_max_left _ _) h0.le
    have e2 : q * (1 - a) ≤ max p q * (1 - a) := mul_le_mul_of_nonneg_right (le_max_right _ _) h2.le
    linarith

/-- **C59.** The filtered vector lies between the previous and the current one on each axis, and has the
type and the time stamp of the current one. -/
theorem C59_between (p q : SensorMeasurement) :
    let r := lowPassFilter p q
    (min p.data.values.x q.data.values.x ≤ r.data.values.x ∧ r.data.values.x ≤ max p.data.values.x q.data.values.x) ∧
    (min p.data.values.y q.data.values.y ≤ r.data.values.y ∧ r.data.values.y ≤ max p.data.values.y q.data.values.y) ∧
    (min p.data.values.z q.data.values.z ≤ r.data.values.z ∧ r.data.values.z ≤ max p.data.values.z q.data.values.z) ∧
    r.data.type = q.data.type ∧ r.ts = q.ts := by
  obtain ⟨h0, h1, -⟩ := C59_gain p.ts q.ts
  exact ⟨between_axis _ _ _ h0 h1, between_axis _ _ _ h0 h1, between_axis _ _ _ h0 h1, rfl, rfl⟩

end Verif.Fusion
