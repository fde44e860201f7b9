import Verif.Standalone.CfModel
import Verif.Fusion.OrientProps
import Verif.Fusion.EulerProps
import Verif.Vec.Props

/-!
# The stand-alone complementary filter: C103, C104
-/

namespace Verif.Standalone.Cf

open Verif Verif.Pedo Verif.Fusion

/-! ## Specification -/

/-- A new stand-alone filter after a sequence of measurements. -/
noncomputable def run (g : Gains) (j1 j2 : SensorType) (ms : List Measurement) : State :=
  ms.foldl (update g) (init j1 j2)

/-- The same measurement in the form of the library. -/
def toLib (m : Measurement) : SensorMeasurement := ⟨⟨m.type, m.values⟩, m.ts⟩

/-- Whether a gyroscope message is in the list. -/
def gyroSeen (ms : List Measurement) : Prop := ∃ m ∈ ms, m.type = SensorType.GYROSCOPE

/-- The direction the filter holds for a measured field: the field with its horizontal part turned to the north. -/
noncomputable def expectedField (q : Quat) (v : Vector3d) : Vector3d :=
  toDevice q ⟨0, Real.sqrt ((toWorld q v).y ^ 2 + (toWorld q v).x ^ 2), (toWorld q v).z⟩

open Classical in
/-- The error that a measurement shows when it comes after the measurements `ms`: the cross product of the measured direction and
the direction the filter holds; none for other sensors, nor for
the magnetometer after a gyroscope message or with a field of no length. -/
noncomputable def shownError (g : Gains) (j1 j2 : SensorType) (ms : List Measurement) (m : Measurement) : Vector3d :=
  if m.type = .ACCELEROMETER then cross (vnormalized m.values) (toDevice (run g j1 j2 ms).q vertical)
  else if m.type = .MAGNETOMETER ∧ ¬ gyroSeen ms ∧ EPSILON < magnitude m.values then
    cross (vnormalized m.values) (expectedField (run g j1 j2 ms).q (vnormalized m.values))
  else ⟨0, 0, 0⟩

/-- The sum of the errors of the measurements `l`, which come after `pre`. -/
noncomputable def errorsFrom (g : Gains) (j1 j2 : SensorType) (pre : List Measurement) : List Measurement → Vector3d
  | [] => ⟨0, 0, 0⟩
  | m :: l => vadd (shownError g j1 j2 pre m) (errorsFrom g j1 j2 (pre ++ [m]) l)

/-- The accelerometer and magnetometer messages in a list. -/
def corrections (ms : List Measurement) : List Measurement :=
  ms.filter (fun m => m.type = .ACCELEROMETER ∨ m.type = .MAGNETOMETER)

/-! ## Proofs -/

/-- The stand-alone filter and the library's agree. -/
structure Same (s : State) (t : CfState) : Prop where
  ts : s.currentTs = t.currentTs
  gyro : s.lastGyroTs = t.lastGyroTs
  err : s.integralError = t.integralError
  q : s.q = t.q
  magn : s.magneticAzimuth = t.magneticAzimuth
  dev : s.deviceAzimuth = t.deviceAzimuth

theorem same_update (g : Gains) (life : ℝ) {s : State} {t : CfState} (h : Same s t) (m : Measurement) :
    Same (update g s m) (cfUpdate ⟨g.ka, g.km, g.ki, life⟩ t (toLib m)) := by
  obtain ⟨h1, h2, h3, h4, h5, h6⟩ := h
  have he : DOUBLE_EPSILON = CF_DOUBLE_EPSILON := rfl
  have hq : ∀ q v, updateQuaternion q v = Fusion.updateQuaternion q v := fun _ _ => rfl
  unfold update cfUpdate
  dsimp only [toLib]
  cases hm : m.type with
  | ACCELEROMETER =>
    constructor <;> simp [updateUsingAccelerometer, Fusion.updateUsingAccelerometer, h1, h2, h3, h4, h5, h6, hq, gravSensorFrame,
      integralTerm, he]
  | MAGNETOMETER =>
    by_cases hg : t.lastGyroTs = -1
    · by_cases hs : magnitude (vnormalized m.values) < CF_DOUBLE_EPSILON
      · constructor <;> simp [updateUsingMagnetometer, Fusion.updateUsingMagnetometer, h1, h2, h3, h4, h5, h6, hq, hg, hs, he,
          calculateMagneticAzimuth, Fusion.calculateMagneticAzimuth]
      · constructor <;> simp [updateUsingMagnetometer, Fusion.updateUsingMagnetometer, h1, h2, h3, h4, h5, h6, hq, hg, hs, he,
          calculateMagneticAzimuth, Fusion.calculateMagneticAzimuth, integralTerm]
    · constructor <;> simp [h1, h2, h3, h4, h5, h6, hg, calculateMagneticAzimuth, Fusion.calculateMagneticAzimuth]
  | GYROSCOPE =>
    by_cases hg : t.lastGyroTs = -1
    · constructor <;> simp [updateUsingGyroscope, Fusion.updateUsingGyroscope, h1, h2, h3, h4, h5, h6, hq, hg]
    · constructor <;> simp [updateUsingGyroscope, Fusion.updateUsingGyroscope, h1, h2, h3, h4, h5, h6, hq, hg]
  | BAROMETER => constructor <;> simp [h1, h2, h3, h4, h5, h6]
  | LOCATION => constructor <;> simp [h1, h2, h3, h4, h5, h6]
  | ORIENTATION => constructor <;> simp [h1, h2, h3, h4, h5, h6]

theorem same_run (g : Gains) (life : ℝ) (j1 j2 : SensorType) (k1 k2 : SensorType × Int) (ms : List Measurement) :
    Same (run g j1 j2 ms) (cfRun ⟨g.ka, g.km, g.ki, life⟩ k1 k2 (ms.map toLib)) := by
  unfold run cfRun
  have h0 : Same (init j1 j2) (cfInit k1 k2) := ⟨rfl, rfl, rfl, rfl, rfl, rfl⟩
  revert h0
  generalize init j1 j2 = s
  generalize cfInit k1 k2 = t
  induction ms generalizing s t with
  | nil => exact fun h => h
  | cons m ms ih => exact fun h => ih _ _ (same_update g life h m)

/-! ## The property -/

/-- **C103.** Whatever the measurements and the gains, all getters of the stand-alone filter answer what those of the library's
filter with the same gains answer after the same measurements. -/
theorem C103_same (g : Gains) (life : ℝ) (j1 j2 : SensorType) (k1 k2 : SensorType × Int) (ms : List Measurement) :
    let s := run g j1 j2 ms
    let t := cfRun ⟨g.ka, g.km, g.ki, life⟩ k1 k2 (ms.map toLib)
    getFusedOrientation s = Fusion.getFusedOrientation t ∧ getFusedAzimuth s = Fusion.getFusedAzimuth t ∧
      getMagneticAzimuth s = t.magneticAzimuth ∧ getDeviceAzimuth s = t.deviceAzimuth := by
  obtain ⟨h1, -, -, h4, h5, h6⟩ := same_run g life j1 j2 k1 k2 ms
  refine ⟨?_, ?_, h5, h6⟩
  · unfold getFusedOrientation Fusion.getFusedOrientation
    rw [h1, h4]
  · unfold getFusedAzimuth Fusion.getFusedAzimuth
    rw [h4]

/-- **C103.** With the default constructor this is the filter of the navigation library, whatever its settings. -/
theorem C103_default (cs : CommonSettings) (j1 j2 : SensorType) (k1 k2 : SensorType × Int) (ms : List Measurement) :
    let s := run defaultGains j1 j2 ms
    let t := cfRun (fusionConfig cs).cf k1 k2 (ms.map toLib)
    getFusedOrientation s = Fusion.getFusedOrientation t ∧ getFusedAzimuth s = Fusion.getFusedAzimuth t ∧
      getMagneticAzimuth s = t.magneticAzimuth ∧ getDeviceAzimuth s = t.deviceAzimuth :=
  C103_same defaultGains cs.deviceAzimuthLifetimeSeconds j1 j2 k1 k2 ms

theorem unit_run (g : Gains) (j1 j2 : SensorType) (ms : List Measurement) : (run g j1 j2 ms).q.normSq = 1 := by
  rw [(same_run g 0 j1 j2 (j1, -1) (j2, -1) ms).q]
  exact (cfInv_run _ _ _ _).unit

/-- **C103.** What the getters answer lies in the usual ranges, and the time is that of the last measurement. -/
theorem C103_range (g : Gains) (j1 j2 : SensorType) (ms : List Measurement) :
    let o := getFusedOrientation (run g j1 j2 ms)
    (-Real.pi < o.roll ∧ o.roll ≤ Real.pi) ∧ (-(Real.pi / 2) ≤ o.pitch ∧ o.pitch ≤ Real.pi / 2) ∧ (-Real.pi < o.yaw ∧ o.yaw ≤ Real.pi) ∧
      getFusedAzimuth (run g j1 j2 ms) = -o.yaw ∧ o.ts = (ms.getLast?.map Measurement.ts).getD (-1) := by
  obtain ⟨h1, -, -, h4, -, -⟩ := same_run g 0 j1 j2 (j1, -1) (j2, -1) ms
  have hr := C97_range (cfRun ⟨g.ka, g.km, g.ki, 0⟩ (j1, -1) (j2, -1) (ms.map toLib))
  obtain ⟨e1, -⟩ := C103_same g 0 j1 j2 (j1, -1) (j2, -1) ms
  dsimp only at e1 ⊢
  rw [← e1] at hr
  obtain ⟨r1, r2, r3, r4, r5, r6⟩ := hr
  refine ⟨⟨r1, r2⟩, ⟨r3, r4⟩, ⟨r5, r6⟩, rfl, ?_⟩
  change (run g j1 j2 ms).currentTs = _
  cases ms using List.reverseRecOn with
  | nil => rfl
  | append_singleton ms m => simp [run, update]

theorem run_snoc (g : Gains) (j1 j2 : SensorType) (ms : List Measurement) (m : Measurement) :
    run g j1 j2 (ms ++ [m]) = update g (run g j1 j2 ms) m := by
  unfold run
  rw [List.foldl_append]
  rfl

theorem vadd_assoc (a b c : Vector3d) : vadd (vadd a b) c = vadd a (vadd b c) := by
  apply vec_ext <;> simp only [vadd] <;> ring

theorem vadd_zero (a : Vector3d) : vadd a ⟨0, 0, 0⟩ = a := by simp [vadd]

theorem vscale_add (k : ℝ) (a b : Vector3d) : vscale k (vadd a b) = vadd (vscale k a) (vscale k b) := by
  apply vec_ext <;> simp only [vadd, vscale] <;> ring

theorem errorsFrom_append (g : Gains) (j1 j2 : SensorType) (pre l l' : List Measurement) :
    errorsFrom g j1 j2 pre (l ++ l') = vadd (errorsFrom g j1 j2 pre l) (errorsFrom g j1 j2 (pre ++ l) l') := by
  induction l generalizing pre with
  | nil => simp [errorsFrom, vadd]
  | cons m l ih => rw [List.cons_append, errorsFrom, errorsFrom, ih, vadd_assoc]; simp

theorem gyro_lib (ms : List Measurement) :
    (ms.map toLib).filter (fun m => m.data.type = SensorType.GYROSCOPE) =
      (ms.filter (fun m => m.type = SensorType.GYROSCOPE)).map toLib := by
  rw [List.filter_map]
  rfl

/-- The time of the last gyroscope message. -/
theorem last_gyro (g : Gains) (j1 j2 : SensorType) (ms : List Measurement)
    (hts : ∀ m ∈ ms, m.type = SensorType.GYROSCOPE → m.ts ≠ -1) :
    (run g j1 j2 ms).lastGyroTs =
      ((ms.filter (fun m => m.type = SensorType.GYROSCOPE)).getLast?.map Measurement.ts).getD (-1) := by
  rw [(same_run g 0 j1 j2 (j1, -1) (j2, -1) ms).gyro, gyro_seen, gyro_lib, List.getLast?_map, Option.map_map]
  · rfl
  · intro x hx
    obtain ⟨y, hy, rfl⟩ := List.mem_map.mp hx
    exact hts y hy

theorem gyro_flag (g : Gains) (j1 j2 : SensorType) (ms : List Measurement)
    (hts : ∀ m ∈ ms, m.type = SensorType.GYROSCOPE → m.ts ≠ -1) :
    (run g j1 j2 ms).lastGyroTs = -1 ↔ ¬ gyroSeen ms := by
  rw [last_gyro g j1 j2 ms hts]
  unfold gyroSeen
  cases hl : (ms.filter (fun m => m.type = SensorType.GYROSCOPE)).getLast? with
  | none =>
    rw [List.getLast?_eq_none_iff, List.filter_eq_nil_iff] at hl
    simp only [Option.map_none, Option.getD_none, true_iff]
    rintro ⟨m, hm, ht⟩
    exact hl m hm (by simpa using ht)
  | some x =>
    have hx := List.mem_of_getLast? hl
    rw [List.mem_filter] at hx
    simp only [Option.map_some, Option.getD_some]
    have hty : x.type = SensorType.GYROSCOPE := by simpa using hx.2
    constructor
    · intro h; exact absurd h (hts x hx.1 hty)
    · intro h; exact absurd ⟨x, hx.1, hty⟩ h

theorem norm_small (v : Vector3d) : magnitude (vnormalized v) < DOUBLE_EPSILON ↔ ¬ EPSILON < magnitude v := by
  have h0 : 0 ≤ magnitude v := Real.sqrt_nonneg _
  have heps : EPSILON < DOUBLE_EPSILON := by
    unfold EPSILON DOUBLE_EPSILON
    norm_num
  rw [vnormalized_eq]
  rw [abs_of_nonneg h0]
  by_cases h : EPSILON < magnitude v
  · rw [if_pos h]
    have he : 0 < EPSILON := by unfold EPSILON; positivity
    have hp : 0 < magnitude v := lt_trans he h
    have : magnitude ⟨v.x / magnitude v, v.y / magnitude v, v.z / magnitude v⟩ = 1 := by
      have hs : magnitude v * magnitude v = v.x * v.x + v.y * v.y + v.z * v.z := Real.mul_self_sqrt (by
        have := mul_self_nonneg v.x
        have := mul_self_nonneg v.y
        have := mul_self_nonneg v.z
        linarith)
      rw [magnitude, Real.sqrt_eq_one]
      dsimp only
      field_simp
      linear_combination -hs
    rw [this]
    simp only [h, not_true, iff_false, not_lt]
    unfold DOUBLE_EPSILON
    norm_num
  · rw [if_neg h]
    simp only [h, not_false_iff, iff_true]
    exact lt_of_le_of_lt (not_lt.mp h) heps

/-- The integral error of the filter. -/
theorem integral_run (g : Gains) (j1 j2 : SensorType) (ms : List Measurement) (hki : DOUBLE_EPSILON < g.ki)
    (hts : ∀ m ∈ ms, m.type = SensorType.GYROSCOPE → m.ts ≠ -1) :
    (run g j1 j2 ms).integralError = vscale g.ki (errorsFrom g j1 j2 [] ms) := by
  induction ms using List.reverseRecOn with
  | nil => simp [run, init, errorsFrom, vscale]
  | append_singleton ms m ih =>
    have hts' : ∀ m ∈ ms, m.type = SensorType.GYROSCOPE → m.ts ≠ -1 := fun x hx => hts x (List.mem_append_left _ hx)
    have ih := ih hts'
    have hf := gyro_flag g j1 j2 ms hts'
    have hu := unit_run g j1 j2 ms
    rw [errorsFrom_append, vscale_add, ← ih, run_snoc, List.nil_append, errorsFrom, errorsFrom, vadd_zero]
    unfold shownError
    generalize run g j1 j2 ms = s at *
    unfold update
    cases hm : m.type with
    | ACCELEROMETER =>
      have hg : ((s.q.conj.mul ⟨0, 0, 0, 1⟩).mul s.q).toVec = toDevice s.q vertical := sand_conj_unit s.q hu vertical
      simp only [updateUsingAccelerometer, if_true, if_pos hki]
      rw [hg]
    | MAGNETOMETER =>
      have h1 : ∀ v, ((s.q.mul (Quat.ofVec v)).mul s.q.conj).toVec = toWorld s.q v := sand_unit s.q hu
      have h2 : ∀ v, ((s.q.conj.mul (Quat.ofVec v)).mul s.q).toVec = toDevice s.q v := sand_conj_unit s.q hu
      by_cases hg : gyroSeen ms
      · have : s.lastGyroTs ≠ -1 := fun h => (hf.mp h) hg
        simp [this, hg, vscale, vadd]
      · have := hf.mpr hg
        by_cases hs : EPSILON < magnitude m.values
        · have hs' : ¬ magnitude (vnormalized m.values) < DOUBLE_EPSILON := by rw [norm_small]; simpa using hs
          simp [this, hg, hs, hs', updateUsingMagnetometer, h1, h2, hki, expectedField, pow_two]
        · have hs' : magnitude (vnormalized m.values) < DOUBLE_EPSILON := by rw [norm_small]; exact hs
          simp [this, hg, hs, hs', updateUsingMagnetometer, vscale, vadd]
    | GYROSCOPE =>
      by_cases hg : s.lastGyroTs = -1 <;> simp [updateUsingGyroscope, hg, vscale, vadd]
    | BAROMETER => simp [vscale, vadd]
    | LOCATION => simp [vscale, vadd]
    | ORIENTATION => simp [vscale, vadd]

/-- **C104.** With an integral gain above 10⁻⁸, a gyroscope message of rate `ω` (a vector) turns the orientation as if the rate were `ω`
plus the gain times the sum of the errors that all accelerometer and magnetometer messages have shown so far: about the axis of
this sum, by `2 arctan` of half its length times the time since the gyroscope message before. -/
theorem C104_turn (g : Gains) (hki : DOUBLE_EPSILON < g.ki) (j1 j2 : SensorType) (ms : List Measurement)
    (hts : ∀ m ∈ ms, m.type = SensorType.GYROSCOPE → m.ts ≠ -1) (b m : Measurement)
    (hb : (ms.filter (fun m => m.type = SensorType.GYROSCOPE)).getLast? = some b) (hm : m.type = SensorType.GYROSCOPE)
    (n : Vector3d) (hn : dot n n = 1) (ρ : ℝ)
    (hρ : vadd m.values (vscale g.ki (errorsFrom g j1 j2 [] ms)) = ⟨ρ * n.x, ρ * n.y, ρ * n.z⟩) (v : Vector3d) :
    toWorld (run g j1 j2 (ms ++ [m])).q v = toWorld (run g j1 j2 ms).q (rotateAbout n (turn ρ (m.ts - b.ts)) v) := by
  have hl := last_gyro g j1 j2 ms hts
  rw [hb, Option.map_some, Option.getD_some] at hl
  have hbm : b ∈ ms ∧ b.type = SensorType.GYROSCOPE := by
    have := List.mem_of_getLast? hb
    simpa using this
  have hne : (run g j1 j2 ms).lastGyroTs ≠ -1 := by rw [hl]; exact hts b hbm.1 hbm.2
  have hi := integral_run g j1 j2 ms hki hts
  rw [run_snoc]
  unfold update
  simp only [hm, updateUsingGyroscope, if_neg hne, reduceCtorEq, if_false, if_true]
  rw [hi, hl, ← vscale_add, hρ]
  unfold turn
  apply update_rotates _ (unit_run g j1 j2 ms) n hn <;> simp only [vscale] <;> push_cast <;> norm_num <;> ring

theorem magnitude_dot (v : Vector3d) : magnitude v ^ 2 = dot v v := by
  have := dot_self_nonneg v
  exact Real.sq_sqrt this

theorem magnitude_toDevice (q : Quat) (h : q.normSq = 1) (v : Vector3d) : magnitude (toDevice q v) = magnitude v := by
  unfold magnitude
  exact congrArg Real.sqrt (dot_toDevice q h v v)

theorem normalized_le (v : Vector3d) : magnitude (vnormalized v) ≤ 1 := by
  obtain ⟨h1, h2, -⟩ := Vec.C98_normalized v
  rw [Vec.magnitude_norm]
  by_cases h : EPSILON < ‖Vec.toE v‖
  · exact (h1 h).1.le
  · rw [h2 (not_lt.mp h)]
    refine (not_lt.mp h).trans ?_
    unfold EPSILON
    norm_num

theorem cross_le (a b : Vector3d) : magnitude (cross a b) ≤ magnitude a * magnitude b := by
  obtain ⟨-, -, -, h⟩ := Vec.C98_cross a b
  have h1 : 0 ≤ magnitude a * magnitude b := mul_nonneg (Real.sqrt_nonneg _) (Real.sqrt_nonneg _)
  refine abs_le_of_sq_le_sq' ?_ h1 |>.2
  have := sq_nonneg (Vec.dotProduct a b)
  rw [mul_pow]
  linarith

theorem vadd_le (a b : Vector3d) : magnitude (vadd a b) ≤ magnitude a + magnitude b := by
  rw [Vec.magnitude_norm, Vec.magnitude_norm, Vec.magnitude_norm, (Vec.C98_linear a b 0).1]
  exact norm_add_le _ _

theorem field_length (q : Quat) (h : q.normSq = 1) (v : Vector3d) : magnitude (expectedField q v) = magnitude v := by
  unfold expectedField
  rw [magnitude_toDevice q h]
  unfold magnitude
  congr 1
  have := dot_toWorld q h v v
  have hs := Real.mul_self_sqrt (show 0 ≤ (toWorld q v).y ^ 2 + (toWorld q v).x ^ 2 by positivity)
  simp only [dot] at this
  dsimp only
  rw [hs]
  linear_combination this

theorem zero_length : magnitude ⟨0, 0, 0⟩ = 0 := by simp [magnitude]

theorem error_le (g : Gains) (j1 j2 : SensorType) (ms : List Measurement) (m : Measurement) :
    magnitude (shownError g j1 j2 ms m) ≤ if m.type = .ACCELEROMETER ∨ m.type = .MAGNETOMETER then 1 else 0 := by
  have hu := unit_run g j1 j2 ms
  have hn := normalized_le m.values
  have h0 : 0 ≤ magnitude (vnormalized m.values) := Real.sqrt_nonneg _
  unfold shownError
  by_cases ha : m.type = .ACCELEROMETER
  · rw [if_pos ha, if_pos (Or.inl ha)]
    refine (cross_le _ _).trans ?_
    rw [magnitude_toDevice _ hu]
    have : magnitude vertical = 1 := by simp [magnitude, vertical]
    rw [this, mul_one]
    exact hn
  · rw [if_neg ha]
    split_ifs with h1 h2 h2
    · refine (cross_le _ _).trans ?_
      rw [field_length _ hu]
      nlinarith
    · exact absurd (Or.inr h1.1) h2
    · rw [zero_length]; norm_num
    · rw [zero_length]

/-- **C104, bound.** The sum of the errors is at most the number of accelerometer and magnetometer messages. -/
theorem C104_bound (g : Gains) (j1 j2 : SensorType) (ms : List Measurement) :
    magnitude (errorsFrom g j1 j2 [] ms) ≤ (corrections ms).length := by
  have key : ∀ l pre, magnitude (errorsFrom g j1 j2 pre l) ≤ (corrections l).length := by
    intro l
    induction l with
    | nil => intro pre; simp [errorsFrom, corrections, magnitude]
    | cons m l ih =>
      intro pre
      rw [errorsFrom]
      refine (vadd_le _ _).trans ?_
      have h1 := error_le g j1 j2 pre m
      have h2 := ih (pre ++ [m])
      unfold corrections at h2 ⊢
      by_cases hc : m.type = .ACCELEROMETER ∨ m.type = .MAGNETOMETER
      · rw [if_pos hc] at h1
        rw [List.filter_cons_of_pos (by simpa using hc), List.length_cons]
        push_cast
        linarith
      · rw [if_neg hc] at h1
        rw [List.filter_cons_of_neg (by simpa using hc)]
        linarith
  exact key ms []

/-- **C104, off.** An integral gain of at most 10⁻⁸ is the same as none. -/
theorem C104_off (g : Gains) (hki : g.ki ≤ DOUBLE_EPSILON) (j1 j2 : SensorType) (ms : List Measurement) :
    run g j1 j2 ms = run { g with ki := 0 } j1 j2 ms := by
  have hu : ∀ s m, update g s m = update { g with ki := 0 } s m := by
    intro s m
    have h1 : ¬ g.ki > DOUBLE_EPSILON := not_lt.mpr hki
    have h2 : ¬ (0 : ℝ) > DOUBLE_EPSILON := by unfold DOUBLE_EPSILON; norm_num
    unfold update updateUsingAccelerometer updateUsingMagnetometer
    simp only [if_neg h1, if_neg h2]
  unfold run
  congr 1
  funext s m
  exact hu s m

/-- An accelerometer sample of a device lying on its side. -/
def side (t : Int) : Measurement := ⟨.ACCELEROMETER, t, ⟨1, 0, 0⟩⟩

theorem windup_q (j1 j2 : SensorType) (n : ℕ) (ki : ℝ) :
    (run ⟨0, 0, ki⟩ j1 j2 (List.replicate n (side 0))).q = Quat.one := by
  induction n with
  | zero => rfl
  | succ n ih =>
    rw [List.replicate_succ', run_snoc]
    generalize run ⟨0, 0, ki⟩ j1 j2 (List.replicate n (side 0)) = s at *
    unfold update
    simp only [side, if_true, updateUsingAccelerometer]
    rw [ih]
    have hz : ∀ v, vscale 0 v = ⟨0, 0, 0⟩ := fun v => by simp [vscale]
    rw [hz]
    simp only [updateQuaternion, Quat.one, Quat.ofVec, Quat.mul, Quat.scale, Quat.add, Quat.normalized_div]
    norm_num

/-- **C104, finding.** Nothing takes errors back and nothing limits their sum: with the accelerometer gain 0, every sample of a device
that lies on its side adds the integral gain in full.  The bound is attained. -/
theorem C104_windup (j1 j2 : SensorType) (n : ℕ) (ki : ℝ) :
    errorsFrom ⟨0, 0, ki⟩ j1 j2 [] (List.replicate n (side 0)) = ⟨0, -n, 0⟩ := by
  induction n with
  | zero => simp [errorsFrom]
  | succ n ih =>
    rw [List.replicate_succ', errorsFrom_append, ih, List.nil_append, errorsFrom, errorsFrom, vadd_zero, shownError,
      windup_q, if_pos (show (side 0).type = .ACCELEROMETER from rfl)]
    have h1 : vnormalized (side 0).values = ⟨1, 0, 0⟩ := by
      rw [vnormalized_eq]
      simp [side, magnitude]
    rw [h1]
    apply vec_ext <;> simp [vadd, cross, toDevice, Quat.one, vertical]
    ring

/-- The hypotheses of C104 are met, and the effect is visible: after 100 samples on the side a gyroscope message of rate 0 turns the
orientation by `2 arctan (1/2)` in one second. -/
example (v : Vector3d) :
    let ms : List Measurement := List.replicate 100 (side 0) ++ [⟨.GYROSCOPE, 0, ⟨0, 0, 0⟩⟩]
    let g : Gains := ⟨0, 0, 0.01⟩
    toWorld (run g .LOCATION .LOCATION (ms ++ [⟨.GYROSCOPE, 1000, ⟨0, 0, 0⟩⟩])).q v =
      toWorld (run g .LOCATION .LOCATION ms).q (rotateAbout ⟨0, -1, 0⟩ (2 * Real.arctan (1 / 2)) v) := by
  intro ms g
  have h := C104_turn g (by simp only [g, DOUBLE_EPSILON]; norm_num) .LOCATION .LOCATION ms (by
      intro m hm ht
      rcases List.mem_append.mp hm with hm | hm
      · rw [(List.mem_replicate.mp hm).2] at ht
        cases ht
      · rw [List.mem_singleton] at hm
        rw [hm]
        decide) ⟨.GYROSCOPE, 0, ⟨0, 0, 0⟩⟩ ⟨.GYROSCOPE, 1000, ⟨0, 0, 0⟩⟩ (by simp [ms, List.filter_append]) rfl ⟨0, -1, 0⟩ (by simp [dot]) 1
      (by
        simp only [ms]
        rw [errorsFrom_append, C104_windup, errorsFrom, errorsFrom, vadd_zero]
        apply vec_ext <;> simp [vadd, vscale, shownError, g]
        norm_num) v
  rw [h]
  unfold turn
  norm_num

end Verif.Standalone.Cf
