import Verif.Fusion.OrientProps
import Mathlib.Analysis.SpecialFunctions.Trigonometric.Angle
import Mathlib.Tactic.Abel

/-!
# Property theorems for the magnetometer in the complementary filter: C92, C93
-/

namespace Verif.Fusion

open Verif Verif.Pedo

/-! ## C92 -/

/-- The horizontal part of a vector of the world turned to the north axis, its height kept. -/
noncomputable def turnedNorth (g : Vector3d) : Vector3d := ⟨0, Real.sqrt (g.x ^ 2 + g.y ^ 2), g.z⟩

/-- The orientation after a magnetometer message before the first gyroscope message. -/
theorem magn_update (c : CfConfig) (s : CfState) (h : s.q.normSq = 1) (m : SensorMeasurement)
    (hm : m.data.type = SensorType.MAGNETOMETER) (hg : s.lastGyroTs = -1) (hv : EPSILON < magnitude m.data.values) :
    (cfUpdate c s m).q = updateQuaternion s.q (vscale c.km (cross (direction m.data.values)
      (toDevice s.q (turnedNorth (toWorld s.q (direction m.data.values)))))) := by
  have hd := direction_unit _ hv
  have hone : magnitude (direction m.data.values) = 1 := by
    have h1 := magnitude_sq (direction m.data.values)
    rw [hd] at h1
    have h2 := magnitude_nonneg (direction m.data.values)
    nlinarith
  unfold cfUpdate
  rw [hm]
  simp only [updateUsingMagnetometer]
  rw [if_pos hg, normalized_direction _ hv, if_neg]
  · dsimp only
    rw [sand_conj_unit _ h]
    have hs : ((s.q.mul (Quat.ofVec (direction m.data.values))).mul s.q.conj).toVec =
        toWorld s.q (direction m.data.values) := sand_unit _ h _
    rw [hs]
    unfold turnedNorth
    rw [show ∀ g : Vector3d, g.y * g.y + g.x * g.x = g.x ^ 2 + g.y ^ 2 from fun g => by ring]
  · rw [hone]
    unfold CF_DOUBLE_EPSILON
    norm_num

theorem turnedNorth_unit (g : Vector3d) (h : dot g g = 1) : dot (turnedNorth g) (turnedNorth g) = 1 := by
  unfold turnedNorth dot at *
  dsimp only at *
  rw [Real.mul_self_sqrt (by positivity)]
  linarith

/-- An update by `k` times the cross product of two unit vectors moves the first towards the second. -/
theorem update_towards (q : Quat) (h : q.normSq = 1) (m b : Vector3d) (hm : dot m m = 1) (hb : dot b b = 1) (k : ℝ) :
    toWorld (updateQuaternion q (vscale k (cross m b))) m =
      toWorld q (vadd (vscale (((1 - k * dot m b / 2) ^ 2 - k ^ 2 / 4) / (1 + k ^ 2 * (1 - dot m b ^ 2) / 4)) m)
        (vscale (k / (1 + k ^ 2 * (1 - dot m b ^ 2) / 4)) b)) := by
  rw [toWorld_update q h]
  congr 1
  have hr : dot (vscale k (cross m b)) (vscale k (cross m b)) = k ^ 2 * (1 - dot m b ^ 2) := by
    rw [← cauchy m b hm hb]
    unfold dot vscale cross
    ring
  have hra : dot (vscale k (cross m b)) m = 0 := by
    unfold dot vscale cross
    ring
  have hd : dot m b ^ 2 ≤ 1 := by
    have h1 := cauchy m b hm hb
    have h2 := dot_self_nonneg (cross m b)
    linarith
  have hp : 0 < 1 + k ^ 2 * (1 - dot m b ^ 2) / 4 := by
    have : 0 ≤ k ^ 2 * (1 - dot m b ^ 2) := mul_nonneg (sq_nonneg k) (by linarith)
    linarith
  rw [hr, hra]
  generalize hN : 1 + k ^ 2 * (1 - dot m b ^ 2) / 4 = N at hp
  have hx : (cross (cross m b) m).x = b.x - dot m b * m.x := by
    have : (cross (cross m b) m).x = dot m m * b.x - dot m b * m.x := by unfold cross dot; ring
    rw [this, hm, one_mul]
  have hy : (cross (cross m b) m).y = b.y - dot m b * m.y := by
    have : (cross (cross m b) m).y = dot m m * b.y - dot m b * m.y := by unfold cross dot; ring
    rw [this, hm, one_mul]
  have hz : (cross (cross m b) m).z = b.z - dot m b * m.z := by
    have : (cross (cross m b) m).z = dot m m * b.z - dot m b * m.z := by unfold cross dot; ring
    rw [this, hm, one_mul]
  generalize hD : dot m b = d at *
  simp only [cross] at hx hy hz
  apply vec_ext
  · simp only [vadd, vscale, cross]
    field_simp
    linear_combination 16 * k * hx
  · simp only [vadd, vscale, cross]
    field_simp
    linear_combination 16 * k * hy
  · simp only [vadd, vscale, cross]
    field_simp
    linear_combination 16 * k * hz

/-- **C92.** A magnetometer message before the first gyroscope message turns the orientation so that
the measured field, seen in the world, moves towards the north axis: it becomes `α` times what it was
plus `β` times the same field with its horizontal part turned to the north axis, with the factors
given.  For a gain strictly between 0 and 1 both factors are positive. -/
theorem C92_step (c : CfConfig) (j1 j2 : SensorType × Int) (ms : List SensorMeasurement)
    (hno : ∀ x ∈ ms, x.data.type ≠ SensorType.GYROSCOPE) (m : SensorMeasurement)
    (hm : m.data.type = SensorType.MAGNETOMETER) (hv : EPSILON < magnitude m.data.values) :
    let g := toWorld (cfRun c j1 j2 ms).q (direction m.data.values)
    let g' := toWorld (cfRun c j1 j2 (ms ++ [m])).q (direction m.data.values)
    let h := Real.sqrt (g.x ^ 2 + g.y ^ 2)
    let d := h * g.y + g.z ^ 2
    let α := ((1 - c.km * d / 2) ^ 2 - c.km ^ 2 / 4) / (1 + c.km ^ 2 * (1 - d ^ 2) / 4)
    let β := c.km / (1 + c.km ^ 2 * (1 - d ^ 2) / 4)
    g'.x = α * g.x ∧ g'.y = α * g.y + β * h ∧ g'.z = (α + β) * g.z ∧
      (0 < c.km → c.km < 1 → 0 < α ∧ 0 < β) := by
  have hu := (cfInv_run c j1 j2 ms).unit
  have hd := direction_unit _ hv
  have hl := gyro_seen c j1 j2 ms (fun x hx h => absurd h (hno x hx))
  have hf : ms.filter (fun m => m.data.type = SensorType.GYROSCOPE) = [] := by
    rw [List.filter_eq_nil_iff]
    intro x hx
    simpa using hno x hx
  rw [hf] at hl
  simp only [List.getLast?_nil, Option.map_none, Option.getD_none] at hl
  rw [run_snoc, magn_update c _ hu m hm hl hv]
  generalize (cfRun c j1 j2 ms).q = q at *
  generalize direction m.data.values = a at *
  have hg : dot (toWorld q a) (toWorld q a) = 1 := by rw [dot_toWorld q hu]; exact hd
  have hb : dot (toDevice q (turnedNorth (toWorld q a))) (toDevice q (turnedNorth (toWorld q a))) = 1 := by
    rw [dot_toDevice q hu]
    exact turnedNorth_unit _ hg
  rw [update_towards q hu a _ hd hb]
  have hlin : ∀ (s t : ℝ) (v w : Vector3d), toWorld q (vadd (vscale s v) (vscale t w)) =
      vadd (vscale s (toWorld q v)) (vscale t (toWorld q w)) := by
    intro s t v w
    apply vec_ext <;> simp only [toWorld, vadd, vscale] <;> ring
  have hdot : dot a (toDevice q (turnedNorth (toWorld q a))) = dot (toWorld q a) (turnedNorth (toWorld q a)) := by
    rw [← dot_toWorld q hu, toWorld_toDevice q hu]
  have hn := turnedNorth_unit _ hg
  have hc := cauchy _ _ hg hn
  have hc0 := dot_self_nonneg (cross (toWorld q a) (turnedNorth (toWorld q a)))
  rw [hlin, hdot, toWorld_toDevice q hu]
  generalize toWorld q a = g at *
  have hdd : dot g (turnedNorth g) = Real.sqrt (g.x ^ 2 + g.y ^ 2) * g.y + g.z ^ 2 := by
    unfold dot turnedNorth
    ring
  rw [hdd] at hc ⊢
  intro g1 g' h d α β
  refine ⟨?_, ?_, ?_, ?_⟩
  · change g.x * α + (turnedNorth g).x * β = α * g.x
    simp only [turnedNorth]
    ring
  · change g.y * α + (turnedNorth g).y * β = α * g.y + β * h
    simp only [turnedNorth]
    change g.y * α + h * β = α * g.y + β * h
    ring
  · change g.z * α + (turnedNorth g).z * β = (α + β) * g.z
    simp only [turnedNorth]
    ring
  · intro hk hk1
    have hd2 : d ^ 2 ≤ 1 := by
      change (Real.sqrt (g.x ^ 2 + g.y ^ 2) * g.y + g.z ^ 2) ^ 2 ≤ 1
      linarith
    have hp : 0 < 1 + c.km ^ 2 * (1 - d ^ 2) / 4 := by
      have : 0 ≤ c.km ^ 2 * (1 - d ^ 2) := mul_nonneg (sq_nonneg _) (by linarith)
      linarith
    have hr : -1 ≤ d ∧ d ≤ 1 := abs_le.mp ((sq_le_one_iff_abs_le_one d).mp hd2)
    refine ⟨div_pos ?_ hp, div_pos hk hp⟩
    have e : (1 - c.km * d / 2) ^ 2 - c.km ^ 2 / 4 = (1 - c.km * (1 + d) / 2) * (1 + c.km * (1 - d) / 2) := by ring
    rw [e]
    apply mul_pos
    · have : c.km * (1 + d) ≤ c.km * 2 := mul_le_mul_of_nonneg_left (by linarith [hr.2]) hk.le
      linarith
    · have : 0 ≤ c.km * (1 - d) := mul_nonneg hk.le (by linarith [hr.2])
      linarith

/-- **C92.** In a filter created from settings the gain is 0.05, whatever the settings. -/
theorem C92_rate (cs : CommonSettings) (j1 j2 : SensorType × Int) (ms : List SensorMeasurement)
    (hno : ∀ x ∈ ms, x.data.type ≠ SensorType.GYROSCOPE) (m : SensorMeasurement)
    (hm : m.data.type = SensorType.MAGNETOMETER) (hv : EPSILON < magnitude m.data.values) :
    let c := (fusionConfig cs).cf
    let g := toWorld (cfRun c j1 j2 ms).q (direction m.data.values)
    let g' := toWorld (cfRun c j1 j2 (ms ++ [m])).q (direction m.data.values)
    let d := Real.sqrt (g.x ^ 2 + g.y ^ 2) * g.y + g.z ^ 2
    g'.x = ((1 - d / 40) ^ 2 - 1 / 1600) / (1 + (1 - d ^ 2) / 1600) * g.x := by
  intro c g g' d
  have h := (C92_step c j1 j2 ms hno m hm hv).1
  have e : c.km = 1 / 20 := by norm_num [c, fusionConfig]
  rw [e] at h
  change g'.x = _ * g.x at h
  rw [h]
  congr 2
  · change (1 - 1 / 20 * d / 2) ^ 2 - _ = _; ring
  · change 1 + _ * (1 - d ^ 2) / 4 = _; ring

/-- **C92.** Therefore the angle between the horizontal field and the north axis never grows: its
cosine does not decrease, and the field stays on the same side.  The cosine grows strictly unless the
field already lies on the axis. -/
theorem C92_north (c : CfConfig) (hk : 0 < c.km) (hk1 : c.km < 1) (j1 j2 : SensorType × Int)
    (ms : List SensorMeasurement) (hno : ∀ x ∈ ms, x.data.type ≠ SensorType.GYROSCOPE) (m : SensorMeasurement)
    (hm : m.data.type = SensorType.MAGNETOMETER) (hv : EPSILON < magnitude m.data.values)
    (hh : (toWorld (cfRun c j1 j2 ms).q (direction m.data.values)).x ≠ 0) :
    let g := toWorld (cfRun c j1 j2 ms).q (direction m.data.values)
    let g' := toWorld (cfRun c j1 j2 (ms ++ [m])).q (direction m.data.values)
    g.y / Real.sqrt (g.x ^ 2 + g.y ^ 2) < g'.y / Real.sqrt (g'.x ^ 2 + g'.y ^ 2) ∧ 0 < g.x * g'.x := by
  obtain ⟨e1, e2, -, e3⟩ := C92_step c j1 j2 ms hno m hm hv
  obtain ⟨hα, hβ⟩ := e3 hk hk1
  intro g g'
  change (g.x ≠ 0) at hh
  generalize hαd : ((1 - c.km * (Real.sqrt (g.x ^ 2 + g.y ^ 2) * g.y + g.z ^ 2) / 2) ^ 2 - c.km ^ 2 / 4) /
    (1 + c.km ^ 2 * (1 - (Real.sqrt (g.x ^ 2 + g.y ^ 2) * g.y + g.z ^ 2) ^ 2) / 4) = α at *
  generalize hβd : c.km / (1 + c.km ^ 2 * (1 - (Real.sqrt (g.x ^ 2 + g.y ^ 2) * g.y + g.z ^ 2) ^ 2) / 4) = β at *
  change g'.x = α * g.x at e1
  change g'.y = α * g.y + β * Real.sqrt (g.x ^ 2 + g.y ^ 2) at e2
  change 0 < α at hα
  change 0 < β at hβ
  have hx2 : 0 < g.x ^ 2 := by positivity
  have hpos : 0 < Real.sqrt (g.x ^ 2 + g.y ^ 2) := Real.sqrt_pos.mpr (by positivity)
  have hsq : Real.sqrt (g.x ^ 2 + g.y ^ 2) ^ 2 = g.x ^ 2 + g.y ^ 2 := Real.sq_sqrt (by positivity)
  generalize Real.sqrt (g.x ^ 2 + g.y ^ 2) = h at *
  have hx' : g'.x ≠ 0 := by rw [e1]; exact mul_ne_zero hα.ne' hh
  have hpos' : 0 < Real.sqrt (g'.x ^ 2 + g'.y ^ 2) := Real.sqrt_pos.mpr (by positivity)
  have hsq' : Real.sqrt (g'.x ^ 2 + g'.y ^ 2) ^ 2 = g'.x ^ 2 + g'.y ^ 2 := Real.sq_sqrt (by positivity)
  generalize Real.sqrt (g'.x ^ 2 + g'.y ^ 2) = h' at *
  refine ⟨?_, ?_⟩
  · have hy1 : g.y < h := by
      by_contra hc
      have : h ≤ g.y := not_lt.mp hc
      have : h ^ 2 ≤ g.y ^ 2 := pow_le_pow_left₀ hpos.le this 2
      linarith
    have hy2 : -h < g.y := by
      by_contra hc
      have : h ≤ -g.y := by linarith [not_lt.mp hc]
      have : h ^ 2 ≤ (-g.y) ^ 2 := pow_le_pow_left₀ hpos.le this 2
      have h3 : (-g.y) ^ 2 = g.y ^ 2 := by ring
      linarith
    have hh' : h' ^ 2 = (α * h) ^ 2 + 2 * α * β * h * g.y + (β * h) ^ 2 := by
      rw [hsq', e1, e2]
      linear_combination (-(α ^ 2)) * hsq
    have hlt : h' < α * h + β * h := by
      have hm1 : 2 * α * β * h * g.y < 2 * α * β * h * h := by
        apply mul_lt_mul_of_pos_left hy1
        positivity
      have : h' ^ 2 < (α * h + β * h) ^ 2 := by
        rw [hh']
        linear_combination hm1
      exact lt_of_pow_lt_pow_left₀ 2 (by positivity) this
    rw [div_lt_div_iff₀ hpos hpos', e2]
    by_cases hy0 : 0 ≤ g.y
    · -- g.y * h' ≤ g.y (α + β) h < (α g.y + β h) h
      have h1 : g.y * h' ≤ g.y * (α * h + β * h) := mul_le_mul_of_nonneg_left hlt.le hy0
      have h2 : g.y * (β * h) < h * (β * h) := mul_lt_mul_of_pos_right hy1 (by positivity)
      linear_combination h1 + h2
    · have hy0 := not_le.mp hy0
      -- h' ≥ |α g.y + β h| is not enough; compare squares
      by_cases hs : 0 ≤ α * g.y + β * h
      · have h1 : g.y * h' < 0 := mul_neg_of_neg_of_pos hy0 hpos'
        have h2 : 0 ≤ (α * g.y + β * h) * h := mul_nonneg hs hpos.le
        linarith
      · have hs := not_le.mp hs
        have key : (-(α * g.y + β * h) * h) ^ 2 < (-g.y * h') ^ 2 := by
          have e : (-g.y * h') ^ 2 - (-(α * g.y + β * h) * h) ^ 2 =
              h * β * (h ^ 2 - g.y ^ 2) * (-(2 * α * g.y + β * h)) := by
            linear_combination g.y ^ 2 * hh'
          have hf : 0 < -(2 * α * g.y + β * h) := by
            have : α * g.y < 0 := mul_neg_of_pos_of_neg hα hy0
            linarith
          have hdif : 0 < h ^ 2 - g.y ^ 2 := by linarith
          have : 0 < h * β * (h ^ 2 - g.y ^ 2) * (-(2 * α * g.y + β * h)) := by positivity
          linarith
        have := lt_of_pow_lt_pow_left₀ 2 (mul_nonneg (by linarith) hpos'.le) key
        linarith
  · rw [e1]
    have : g.x * (α * g.x) = α * g.x ^ 2 := by ring
    rw [this]
    positivity

/-- A new filter and a field along the first axis: the field turns towards the second one. -/
example :
    let m : SensorMeasurement := ⟨⟨SensorType.MAGNETOMETER, ⟨1, 0, 0⟩⟩, 5⟩
    0 < (toWorld (cfRun ⟨0.1, 0.05, 0, 1⟩ (.LOCATION, 0) (.LOCATION, 0) [m]).q ⟨1, 0, 0⟩).y := by
  intro m
  have hmag : magnitude ⟨1, 0, 0⟩ = 1 := by simp [magnitude]
  have hdir : direction m.data.values = ⟨1, 0, 0⟩ := by
    simp only [m, direction, hmag]
    apply vec_ext <;> norm_num
  have hone : ∀ v, toWorld Quat.one v = v := by
    intro v
    apply vec_ext <;> simp [toWorld, Quat.one]
  have h := C92_north ⟨0.1, 0.05, 0, 1⟩ (by norm_num) (by norm_num) (.LOCATION, 0) (.LOCATION, 0) [] (by simp) m rfl
    (by simp only [m, hmag]; exact epsilon_lt_one) (by
      rw [hdir]
      change (toWorld Quat.one ⟨1, 0, 0⟩).x ≠ 0
      rw [hone]
      norm_num)
  rw [hdir] at h
  have h1 := h.1
  change (toWorld Quat.one ⟨1, 0, 0⟩).y / _ < _ at h1
  rw [hone, zero_div] at h1
  by_contra hc
  have := div_nonpos_of_nonpos_of_nonneg (not_lt.mp hc) (Real.sqrt_nonneg
    ((toWorld (cfRun ⟨0.1, 0.05, 0, 1⟩ (.LOCATION, 0) (.LOCATION, 0) [m]).q ⟨1, 0, 0⟩).x ^ 2 +
      (toWorld (cfRun ⟨0.1, 0.05, 0, 1⟩ (.LOCATION, 0) (.LOCATION, 0) [m]).q ⟨1, 0, 0⟩).y ^ 2))
  simp only [List.nil_append] at h1
  linarith

/-! ## C93 -/

theorem sameAngle_iff (a b : ℝ) : SameAngle a b ↔ (a : Real.Angle) = (b : Real.Angle) := by
  rw [Real.Angle.angle_eq_iff_two_pi_dvd_sub]
  constructor
  · rintro ⟨k, h⟩
    exact ⟨k, by rw [h]; ring⟩
  · rintro ⟨k, h⟩
    exact ⟨k, by linarith⟩

/-- A point turned by an angle has an argument larger by this angle. -/
theorem atan2_turn (x y φ : ℝ) (h : x ≠ 0 ∨ y ≠ 0) :
    ((atan2 (Real.sin φ * x + Real.cos φ * y) (Real.cos φ * x - Real.sin φ * y) : ℝ) : Real.Angle) =
      (atan2 y x : ℝ) + (φ : ℝ) := by
  unfold atan2
  have hz : (⟨x, y⟩ : ℂ) ≠ 0 := by
    intro hc
    have h1 := congrArg Complex.re hc
    have h2 := congrArg Complex.im hc
    simp at h1 h2
    cases h <;> contradiction
  have he : (⟨Real.cos φ, Real.sin φ⟩ : ℂ) = Complex.cos φ + Complex.sin φ * Complex.I := by
    apply Complex.ext <;> simp [← Complex.ofReal_cos, ← Complex.ofReal_sin]
  have hw : (⟨Real.cos φ, Real.sin φ⟩ : ℂ) ≠ 0 := by
    intro hc
    have h1 := congrArg Complex.re hc
    have h2 := congrArg Complex.im hc
    simp at h1 h2
    have := Real.sin_sq_add_cos_sq φ
    rw [h1, h2] at this
    norm_num at this
  have hm : (⟨Real.cos φ * x - Real.sin φ * y, Real.sin φ * x + Real.cos φ * y⟩ : ℂ) =
      ⟨x, y⟩ * ⟨Real.cos φ, Real.sin φ⟩ := by
    apply Complex.ext <;> simp only [Complex.mul_re, Complex.mul_im] <;> ring
  rw [hm, Complex.arg_mul_coe_angle hz hw]
  congr 1
  rw [← sameAngle_iff, he]
  have h3 := Complex.arg_cos_add_sin_mul_I_sub φ
  exact ⟨_, by linarith⟩

theorem turner_normalized (y : ℝ) : (⟨Real.sin y, 0, 0, Real.cos y⟩ : Quat).normalized = ⟨Real.sin y, 0, 0, Real.cos y⟩ := by
  have hu : (⟨Real.sin y, 0, 0, Real.cos y⟩ : Quat).normSq = 1 := by
    simp only [Quat.normSq]
    linear_combination Real.sin_sq_add_cos_sq y
  rw [normalized_eq _ hu.ge, hu]
  simp

theorem azimuth_angle (q : Quat) (h : q.normSq = 1) (m : SensorMeasurement) (hv : EPSILON < magnitude m.data.values)
    (hh : (toWorld q (direction m.data.values)).x ≠ 0 ∨ (toWorld q (direction m.data.values)).y ≠ 0) :
    ((calculateMagneticAzimuth q m : ℝ) : Real.Angle) =
      (atan2 (toWorld q (direction m.data.values)).y (toWorld q (direction m.data.values)).x : ℝ) -
        ((toEuler q).2.2 : ℝ) - ((Real.pi / 2 : ℝ) : Real.Angle) := by
  unfold calculateMagneticAzimuth
  dsimp only
  rw [(sameAngle_iff _ _).mp (C54_range _).2.2.1, normalized_direction _ hv, turner_normalized]
  generalize (toEuler q).2.2 = y
  have hs : ∀ p : Quat, ((p.mul (Quat.ofVec (direction m.data.values))).mul p.conj).toVec = sand p (direction m.data.values) :=
    fun _ => rfl
  rw [hs, sand_mul, sand_unit q h]
  generalize toWorld q (direction m.data.values) = g at *
  have hc : Real.cos y = 2 * Real.cos (y / 2) ^ 2 - 1 := by
    rw [← Real.cos_two_mul]; congr 1; ring
  have hsn : Real.sin y = 2 * Real.sin (y / 2) * Real.cos (y / 2) := by
    rw [← Real.sin_two_mul]; congr 1; ring
  have h1 := Real.sin_sq_add_cos_sq (y / 2)
  have ex : (sand ⟨Real.sin (y / 2), 0, 0, Real.cos (y / 2)⟩ g).x =
      Real.cos (Real.pi - y) * g.x - Real.sin (Real.pi - y) * g.y := by
    rw [Real.cos_pi_sub, Real.sin_pi_sub, hc, hsn]
    simp only [sand, Quat.mul, Quat.ofVec, Quat.conj, Quat.toVec]
    linear_combination g.x * h1
  have ey : (sand ⟨Real.sin (y / 2), 0, 0, Real.cos (y / 2)⟩ g).y =
      Real.sin (Real.pi - y) * g.x + Real.cos (Real.pi - y) * g.y := by
    rw [Real.cos_pi_sub, Real.sin_pi_sub, hc, hsn]
    simp only [sand, Quat.mul, Quat.ofVec, Quat.conj, Quat.toVec]
    linear_combination g.y * h1
  rw [ex, ey, Real.Angle.coe_add, atan2_turn _ _ _ hh]
  have e : ((Real.pi / 2 : ℝ) : Real.Angle) + ((Real.pi - y : ℝ) : Real.Angle) =
      -((y : ℝ) : Real.Angle) - ((Real.pi / 2 : ℝ) : Real.Angle) := by
    rw [← Real.Angle.coe_add, ← Real.Angle.coe_neg, ← Real.Angle.coe_sub, ← sameAngle_iff]
    exact ⟨1, by push_cast; ring⟩
  rw [add_left_comm, e]
  abel

/-- The azimuth stored by a magnetometer message. -/
theorem azimuth_stored (c : CfConfig) (s : CfState) (m : SensorMeasurement)
    (hm : m.data.type = SensorType.MAGNETOMETER) :
    (cfUpdate c s m).magneticAzimuth = calculateMagneticAzimuth (cfUpdate c s m).q m := by
  unfold cfUpdate
  rw [hm]

/-- **C93.** After a magnetometer message the magnetic azimuth is, up to whole turns, the angle from
the forward direction of the levelled device (a quarter turn counter-clockwise from its heading
axis) to the horizontal part of the measured field, as the filter places both in the world: however
the device is tilted. -/
theorem C93_azimuth (c : CfConfig) (j1 j2 : SensorType × Int) (ms : List SensorMeasurement) (m : SensorMeasurement)
    (hm : m.data.type = SensorType.MAGNETOMETER) (hv : EPSILON < magnitude m.data.values) (s : CfState)
    (hs : s = cfRun c j1 j2 (ms ++ [m])) (g : Vector3d) (hg : g = toWorld s.q (direction m.data.values))
    (hh : g.x ≠ 0 ∨ g.y ≠ 0) :
    SameAngle s.magneticAzimuth (atan2 g.y g.x - (-getFusedAzimuth s + Real.pi / 2)) := by
  have hu := (cfInv_run c j1 j2 (ms ++ [m])).unit
  rw [← hs] at hu
  rw [sameAngle_iff]
  have hst : s.magneticAzimuth = calculateMagneticAzimuth s.q m := by
    rw [hs, run_snoc]
    exact azimuth_stored c _ m hm
  rw [hst, azimuth_angle s.q hu m hv (by rw [← hg]; exact hh), ← hg]
  unfold getFusedAzimuth
  rw [Real.Angle.coe_sub, Real.Angle.coe_add, neg_neg]
  abel

theorem yaw_axis (q : Quat) : (toEuler q).2.2 = atan2 (toWorld q ⟨1, 0, 0⟩).y (toWorld q ⟨1, 0, 0⟩).x := by
  unfold toEuler toWorld
  dsimp only
  congr 1 <;> ring

/-- The state after a magnetometer message once the gyroscope has reported. -/
theorem magn_after_gyro (c : CfConfig) (s : CfState) (m : SensorMeasurement)
    (hm : m.data.type = SensorType.MAGNETOMETER) (hg : s.lastGyroTs ≠ -1) : (cfUpdate c s m).q = s.q := by
  unfold cfUpdate
  rw [hm]
  dsimp only
  rw [if_neg hg]

theorem range_unique (a b : ℝ) (ha : -Real.pi ≤ a ∧ a < Real.pi) (hb : -Real.pi ≤ b ∧ b < Real.pi)
    (h : SameAngle a b) : a = b := by
  rw [← (C54_range a).2.2.2 ha.1 ha.2, ← (C54_range b).2.2.2 hb.1 hb.2]
  exact C54_canonical a b h

/-- **C93.** The magnetic azimuth does not depend on the heading the filter has drifted to.  If the
orientations held by two filters that have seen the gyroscope differ by a rotation about the vertical,
the same magnetometer message gives both the same magnetic azimuth (the heading axis must not be
vertical, nor the field). -/
theorem C93_drift (c : CfConfig) (j1 j2 : SensorType × Int) (ms ms' : List SensorMeasurement) (m : SensorMeasurement)
    (hts : ∀ x ∈ ms ++ ms', x.data.type = SensorType.GYROSCOPE → x.ts ≠ -1)
    (hgy : ∃ x ∈ ms, x.data.type = SensorType.GYROSCOPE) (hgy' : ∃ x ∈ ms', x.data.type = SensorType.GYROSCOPE)
    (hm : m.data.type = SensorType.MAGNETOMETER) (hv : EPSILON < magnitude m.data.values) (θ : ℝ)
    (hq : ∀ v, toWorld (cfRun c j1 j2 ms').q v = rotateAbout vertical θ (toWorld (cfRun c j1 j2 ms).q v))
    (hax : (toWorld (cfRun c j1 j2 ms).q ⟨1, 0, 0⟩).x ≠ 0 ∨ (toWorld (cfRun c j1 j2 ms).q ⟨1, 0, 0⟩).y ≠ 0)
    (hh : (toWorld (cfRun c j1 j2 ms).q (direction m.data.values)).x ≠ 0 ∨
      (toWorld (cfRun c j1 j2 ms).q (direction m.data.values)).y ≠ 0) :
    (cfRun c j1 j2 (ms' ++ [m])).magneticAzimuth = (cfRun c j1 j2 (ms ++ [m])).magneticAzimuth := by
  have seen : ∀ l : List SensorMeasurement, (∀ x ∈ l, x.data.type = SensorType.GYROSCOPE → x.ts ≠ -1) →
      (∃ x ∈ l, x.data.type = SensorType.GYROSCOPE) → (cfRun c j1 j2 l).lastGyroTs ≠ -1 := by
    intro l hl ⟨x, hx, hx'⟩
    rw [gyro_seen c j1 j2 l hl]
    have hne : l.filter (fun m => m.data.type = SensorType.GYROSCOPE) ≠ [] := by
      apply List.ne_nil_of_mem (a := x)
      rw [List.mem_filter]
      exact ⟨hx, by simpa using hx'⟩
    rw [List.getLast?_eq_getLast_of_ne_nil hne]
    have hin := List.getLast_mem hne
    rw [List.mem_filter] at hin
    exact hl _ hin.1 (by simpa using hin.2)
  have h1 := seen ms (fun x hx => hts x (List.mem_append_left _ hx)) hgy
  have h2 := seen ms' (fun x hx => hts x (List.mem_append_right _ hx)) hgy'
  have i1 := cfInv_run c j1 j2 (ms ++ [m])
  have i2 := cfInv_run c j1 j2 (ms' ++ [m])
  apply range_unique _ _ i2.magn i1.magn
  rw [sameAngle_iff]
  have u1 := (cfInv_run c j1 j2 ms).unit
  have u2 := (cfInv_run c j1 j2 ms').unit
  rw [run_snoc, run_snoc, azimuth_stored c _ m hm, azimuth_stored c _ m hm, magn_after_gyro c _ m hm h1,
    magn_after_gyro c _ m hm h2]
  generalize (cfRun c j1 j2 ms).q = q1 at *
  generalize (cfRun c j1 j2 ms').q = q2 at *
  have hx : ∀ v, (toWorld q2 v).x = Real.cos θ * (toWorld q1 v).x - Real.sin θ * (toWorld q1 v).y := by
    intro v
    rw [hq v]
    simp only [rotateAbout, vertical, dot]
    ring
  have hy : ∀ v, (toWorld q2 v).y = Real.sin θ * (toWorld q1 v).x + Real.cos θ * (toWorld q1 v).y := by
    intro v
    rw [hq v]
    simp only [rotateAbout, vertical, dot]
    ring
  have hh2 : (toWorld q2 (direction m.data.values)).x ≠ 0 ∨ (toWorld q2 (direction m.data.values)).y ≠ 0 := by
    by_contra hc
    rw [not_or, not_not, not_not, hx, hy] at hc
    have hcs := Real.sin_sq_add_cos_sq θ
    generalize toWorld q1 (direction m.data.values) = g at *
    have e1 : g.x = 0 := by linear_combination Real.cos θ * hc.1 + Real.sin θ * hc.2 - g.x * hcs
    have e2 : g.y = 0 := by linear_combination Real.cos θ * hc.2 - Real.sin θ * hc.1 - g.y * hcs
    cases hh <;> contradiction
  rw [azimuth_angle q1 u1 m hv hh, azimuth_angle q2 u2 m hv hh2, yaw_axis, yaw_axis, hx, hy, hx, hy,
    atan2_turn _ _ _ hh, atan2_turn _ _ _ hax]
  abel

/-- **C93.** For a level device the magnetic azimuth is the angle `α` of the device from magnetic north,
clockwise: with the field reported as `(-h sin α, h cos α, v)`, whatever its strength and inclination. -/
theorem C93_flat (c : CfConfig) (j1 j2 : SensorType × Int) (ms : List SensorMeasurement) (m : SensorMeasurement)
    (hm : m.data.type = SensorType.MAGNETOMETER) (hv : EPSILON < magnitude m.data.values) (h α v : ℝ) (hpos : 0 < h)
    (hval : m.data.values = ⟨-(h * Real.sin α), h * Real.cos α, v⟩) (hα : -Real.pi ≤ α ∧ α < Real.pi)
    (hflat : toWorld (cfRun c j1 j2 (ms ++ [m])).q vertical = vertical) :
    (cfRun c j1 j2 (ms ++ [m])).magneticAzimuth = α := by
  have inv := cfInv_run c j1 j2 (ms ++ [m])
  apply range_unique _ _ inv.magn hα
  rw [sameAngle_iff]
  have hu := inv.unit
  have hst : (cfRun c j1 j2 (ms ++ [m])).magneticAzimuth = calculateMagneticAzimuth (cfRun c j1 j2 (ms ++ [m])).q m := by
    rw [run_snoc]
    exact azimuth_stored c _ m hm
  rw [hst]
  generalize (cfRun c j1 j2 (ms ++ [m])).q = q at *
  have hz := congrArg Vector3d.z hflat
  simp only [toWorld, vertical] at hz
  have hxy : q.x ^ 2 + q.y ^ 2 = 0 := by linarith
  have hx0 : q.x = 0 := by
    have := sq_nonneg q.y
    have := sq_nonneg q.x
    exact pow_eq_zero_iff two_ne_zero |>.mp (by linarith)
  have hy0 : q.y = 0 := by
    have := sq_nonneg q.y
    have := sq_nonneg q.x
    exact pow_eq_zero_iff two_ne_zero |>.mp (by linarith)
  have hwz : q.w ^ 2 + q.z ^ 2 = 1 := by
    unfold Quat.normSq at hu
    rw [hx0, hy0] at hu
    linarith
  have hmp : 0 < magnitude m.data.values := epsilon_pos.trans hv
  have hk : 0 < h / magnitude m.data.values := div_pos hpos hmp
  have hdx : (direction m.data.values).x = -(h / magnitude m.data.values * Real.sin α) := by
    unfold direction
    dsimp only
    rw [hval]
    ring
  have hdy : (direction m.data.values).y = h / magnitude m.data.values * Real.cos α := by
    unfold direction
    dsimp only
    rw [hval]
    ring
  generalize h / magnitude m.data.values = k at *
  -- the rotation about the vertical
  have hcs : (1 - 2 * q.z ^ 2) ^ 2 + (2 * q.w * q.z) ^ 2 = 1 := by
    linear_combination 4 * q.z ^ 2 * hwz
  have haz := azimuth_angle q hu m hv
  rw [yaw_axis] at haz
  have gx : ∀ u : Vector3d, (toWorld q u).x = (1 - 2 * q.z ^ 2) * u.x - 2 * q.w * q.z * u.y := by
    intro u
    simp only [toWorld, hx0, hy0]
    ring
  have gy : ∀ u : Vector3d, (toWorld q u).y = 2 * q.w * q.z * u.x + (1 - 2 * q.z ^ 2) * u.y := by
    intro u
    simp only [toWorld, hx0, hy0]
    ring
  rw [gx, gy, gx, gy] at haz
  obtain ⟨φ, hc, hs⟩ : ∃ φ : ℝ, Real.cos φ = 1 - 2 * q.z ^ 2 ∧ Real.sin φ = 2 * q.w * q.z := by
    refine ⟨Complex.arg ⟨1 - 2 * q.z ^ 2, 2 * q.w * q.z⟩, ?_, ?_⟩
    · have hn : ‖(⟨1 - 2 * q.z ^ 2, 2 * q.w * q.z⟩ : ℂ)‖ = 1 := by
        rw [Complex.norm_eq_sqrt_sq_add_sq, hcs, Real.sqrt_one]
      have h0 : (⟨1 - 2 * q.z ^ 2, 2 * q.w * q.z⟩ : ℂ) ≠ 0 := by
        intro hc
        rw [hc] at hn
        simp at hn
      rw [Complex.cos_arg h0, hn, div_one]
    · have hn : ‖(⟨1 - 2 * q.z ^ 2, 2 * q.w * q.z⟩ : ℂ)‖ = 1 := by
        rw [Complex.norm_eq_sqrt_sq_add_sq, hcs, Real.sqrt_one]
      rw [Complex.sin_arg, hn, div_one]
  rw [← hc, ← hs] at haz
  have hcsα := Real.sin_sq_add_cos_sq α
  have hcsφ := Real.sin_sq_add_cos_sq φ
  have hd0 : (direction m.data.values).x ≠ 0 ∨ (direction m.data.values).y ≠ 0 := by
    by_contra hcon
    rw [not_or, not_not, not_not, hdx, hdy] at hcon
    have : k ^ 2 = 0 := by linear_combination (-k * Real.sin α) * hcon.1 + k * Real.cos α * hcon.2 - k ^ 2 * hcsα
    exact hk.ne' (pow_eq_zero_iff two_ne_zero |>.mp this)
  have hne : Real.cos φ * (direction m.data.values).x - Real.sin φ * (direction m.data.values).y ≠ 0 ∨
      Real.sin φ * (direction m.data.values).x + Real.cos φ * (direction m.data.values).y ≠ 0 := by
    by_contra hcon
    rw [not_or, not_not, not_not] at hcon
    generalize direction m.data.values = g at *
    have e1 : g.x = 0 := by linear_combination Real.cos φ * hcon.1 + Real.sin φ * hcon.2 - g.x * hcsφ
    have e2 : g.y = 0 := by linear_combination Real.cos φ * hcon.2 - Real.sin φ * hcon.1 - g.y * hcsφ
    cases hd0 <;> contradiction
  rw [haz hne, atan2_turn _ _ _ hd0, atan2_turn _ _ _ (Or.inl one_ne_zero)]
  have e0 : atan2 0 1 = 0 := by
    unfold atan2
    rw [show (⟨1, 0⟩ : ℂ) = 1 from rfl, Complex.arg_one]
  have ed : ((atan2 (direction m.data.values).y (direction m.data.values).x : ℝ) : Real.Angle) =
      ((α + Real.pi / 2 : ℝ) : Real.Angle) := by
    rw [hdx, hdy, ← sameAngle_iff]
    unfold atan2
    have : (⟨-(k * Real.sin α), k * Real.cos α⟩ : ℂ) =
        k * (Complex.cos ((α + Real.pi / 2 : ℝ)) + Complex.sin ((α + Real.pi / 2 : ℝ)) * Complex.I) := by
      rw [← Complex.ofReal_cos, ← Complex.ofReal_sin, Real.cos_add_pi_div_two, Real.sin_add_pi_div_two]
      generalize Real.cos α = C
      generalize Real.sin α = S
      apply Complex.ext <;> simp
    rw [this, Complex.arg_real_mul _ hk]
    have h3 := Complex.arg_cos_add_sin_mul_I_sub (α + Real.pi / 2)
    exact ⟨⌊(Real.pi - (α + Real.pi / 2)) / (2 * Real.pi)⌋, by linarith⟩
  rw [ed, e0, Real.Angle.coe_add, Real.Angle.coe_zero]
  abel

/-- A level device with the field on its right faces west. -/
example :
    (cfRun ⟨0.1, 0.05, 0, 1⟩ (.LOCATION, 0) (.LOCATION, 0)
      [⟨⟨SensorType.GYROSCOPE, ⟨0, 0, 0⟩⟩, 1⟩, ⟨⟨SensorType.MAGNETOMETER, ⟨1, 0, -1⟩⟩, 2⟩]).magneticAzimuth = -(Real.pi / 2) := by
  have hpi := Real.pi_pos
  have hmag : EPSILON < magnitude ⟨1, 0, -1⟩ := by
    have : (1 : ℝ) ≤ magnitude ⟨1, 0, -1⟩ := by
      unfold magnitude
      rw [Real.one_le_sqrt]
      norm_num
    linarith [epsilon_lt_one]
  have hq : (cfRun ⟨0.1, 0.05, 0, 1⟩ (.LOCATION, 0) (.LOCATION, 0) ([⟨⟨SensorType.GYROSCOPE, ⟨0, 0, 0⟩⟩, 1⟩] ++
      [⟨⟨SensorType.MAGNETOMETER, ⟨1, 0, -1⟩⟩, 2⟩])).q = Quat.one := by
    rw [run_snoc, magn_after_gyro _ _ _ rfl (by simp [cfRun, cfInit, cfUpdate, updateUsingGyroscope])]
    exact C90_first ⟨0.1, 0.05, 0, 1⟩ (by norm_num [CF_DOUBLE_EPSILON]) _ _ [] (by simp) _ rfl
  exact C93_flat ⟨0.1, 0.05, 0, 1⟩ (.LOCATION, 0) (.LOCATION, 0) [⟨⟨SensorType.GYROSCOPE, ⟨0, 0, 0⟩⟩, 1⟩]
    ⟨⟨SensorType.MAGNETOMETER, ⟨1, 0, -1⟩⟩, 2⟩ rfl hmag 1 (-(Real.pi / 2)) (-1) one_pos
    (by simp) ⟨by linarith, by linarith⟩ (by
      rw [hq]
      apply vec_ext <;> simp [toWorld, Quat.one, vertical])

end Verif.Fusion
