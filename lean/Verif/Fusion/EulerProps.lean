import Verif.Fusion.MagnProps

/-! # C97: the orientation the filter reports -/

namespace Verif.Fusion

open Verif Verif.Pedo

/-! ## Specification -/

/-- Turn by `a` about the first axis. -/
noncomputable def rollBy (a : ℝ) (v : Vector3d) : Vector3d :=
  ⟨v.x, Real.cos a * v.y - Real.sin a * v.z, Real.sin a * v.y + Real.cos a * v.z⟩

/-- Turn by `a` about the second axis. -/
noncomputable def pitchBy (a : ℝ) (v : Vector3d) : Vector3d :=
  ⟨Real.cos a * v.x + Real.sin a * v.z, v.y, -Real.sin a * v.x + Real.cos a * v.z⟩

/-- Turn by `a` about the third, vertical axis. -/
noncomputable def yawBy (a : ℝ) (v : Vector3d) : Vector3d :=
  ⟨Real.cos a * v.x - Real.sin a * v.y, Real.sin a * v.x + Real.cos a * v.y, v.z⟩

/-! ## Lemmas -/

theorem cos_atan2 (y x c : ℝ) (hc : 0 < c) (h : x ^ 2 + y ^ 2 = c ^ 2) : Real.cos (atan2 y x) = x / c := by
  have hn : ‖(⟨x, y⟩ : ℂ)‖ = c := by
    rw [Complex.norm_def, Complex.normSq_mk, ← pow_two, ← pow_two, h, Real.sqrt_sq hc.le]
  have h0 : (⟨x, y⟩ : ℂ) ≠ 0 := by
    intro h0
    rw [h0, norm_zero] at hn
    exact hc.ne hn
  unfold atan2
  rw [Complex.cos_arg h0, hn]

theorem sin_atan2 (y x c : ℝ) (hc : 0 < c) (h : x ^ 2 + y ^ 2 = c ^ 2) : Real.sin (atan2 y x) = y / c := by
  have hn : ‖(⟨x, y⟩ : ℂ)‖ = c := by
    rw [Complex.norm_def, Complex.normSq_mk, ← pow_two, ← pow_two, h, Real.sqrt_sq hc.le]
  unfold atan2
  rw [Complex.sin_arg, hn]

/-- The sine of the pitch of a unit quaternion. -/
theorem sinp_sq (q : Quat) (h : q.normSq = 1) :
    (1 - 2 * (q.y * q.y + q.z * q.z)) ^ 2 + (2 * (q.w * q.z + q.x * q.y)) ^ 2 + (2 * (q.w * q.y - q.z * q.x)) ^ 2 = 1 ∧
    (1 - 2 * (q.x * q.x + q.y * q.y)) ^ 2 + (2 * (q.w * q.x + q.y * q.z)) ^ 2 + (2 * (q.w * q.y - q.z * q.x)) ^ 2 = 1 := by
  have hw : q.w * q.w = 1 - q.x * q.x - q.y * q.y - q.z * q.z := by
    unfold Quat.normSq at h; linarith
  constructor
  · linear_combination (4 * (q.z * q.z) + 4 * (q.y * q.y)) * hw
  · linear_combination (4 * (q.x * q.x) + 4 * (q.y * q.y)) * hw

theorem pitch_range (q : Quat) : -(Real.pi / 2) ≤ (toEuler q).2.1 ∧ (toEuler q).2.1 ≤ Real.pi / 2 := by
  rw [toEuler_eq]
  dsimp only
  have := Real.pi_pos
  split_ifs
  · exact ⟨le_rfl, by linarith⟩
  · exact ⟨by linarith, le_rfl⟩
  · exact ⟨Real.neg_pi_div_two_le_arcsin _, Real.arcsin_le_pi_div_two _⟩

theorem sin_pitch (q : Quat) (h : q.normSq = 1) : Real.sin (toEuler q).2.1 = 2 * (q.w * q.y - q.z * q.x) := by
  have hs := (sinp_sq q h).1
  rw [toEuler_eq]
  dsimp only
  set s := 2 * (q.w * q.y - q.z * q.x) with hsdef
  have hle : s ^ 2 ≤ 1 := by
    linarith [sq_nonneg (1 - 2 * (q.y * q.y + q.z * q.z)), sq_nonneg (2 * (q.w * q.z + q.x * q.y))]
  obtain ⟨l1, l2⟩ := abs_le.mp ((sq_le_one_iff_abs_le_one s).mp hle)
  split_ifs with h1 h2
  · rw [Real.sin_neg, Real.sin_pi_div_two]
    rw [abs_of_neg h2] at h1
    linarith
  · rw [Real.sin_pi_div_two]
    rw [abs_of_nonneg (not_lt.mp h2)] at h1
    linarith
  · exact Real.sin_arcsin l1 l2

/-! ## C97 -/

/-- **C97, the angles are in range.** -/
theorem C97_range (s : CfState) :
    -Real.pi < (getFusedOrientation s).roll ∧ (getFusedOrientation s).roll ≤ Real.pi ∧
    -(Real.pi / 2) ≤ (getFusedOrientation s).pitch ∧ (getFusedOrientation s).pitch ≤ Real.pi / 2 ∧
    -Real.pi < (getFusedOrientation s).yaw ∧ (getFusedOrientation s).yaw ≤ Real.pi :=
  ⟨(atan2_range _ _).1, (atan2_range _ _).2, (pitch_range s.q).1, (pitch_range s.q).2, (atan2_range _ _).1, (atan2_range _ _).2⟩

/-- The rotation of a unit quaternion whose first axis is not vertical is the one of its angles. -/
theorem euler_rotation (q : Quat) (hu : q.normSq = 1) (h : (toWorld q ⟨1, 0, 0⟩).z ^ 2 ≠ 1) (v : Vector3d) :
    toWorld q v = yawBy (toEuler q).2.2 (pitchBy (toEuler q).2.1 (rollBy (toEuler q).1 v)) := by
  obtain ⟨h1, h2⟩ := sinp_sq q hu
  have hsp := sin_pitch q hu
  obtain ⟨r1, r2⟩ := pitch_range q
  set p := (toEuler q).2.1
  have hcp0 : 0 ≤ Real.cos p := Real.cos_nonneg_of_neg_pi_div_two_le_of_le r1 r2
  have hcs := Real.sin_sq_add_cos_sq p
  have hcp : 0 < Real.cos p := by
    rcases hcp0.lt_or_eq with h' | h'
    · exact h'
    · exfalso
      apply h
      rw [← h', hsp] at hcs
      unfold toWorld
      dsimp only
      linear_combination hcs
  have e1 : (1 - 2 * (q.y * q.y + q.z * q.z)) ^ 2 + (2 * (q.w * q.z + q.x * q.y)) ^ 2 = Real.cos p ^ 2 := by
    rw [hsp] at hcs; linarith
  have e2 : (1 - 2 * (q.x * q.x + q.y * q.y)) ^ 2 + (2 * (q.w * q.x + q.y * q.z)) ^ 2 = Real.cos p ^ 2 := by
    rw [hsp] at hcs; linarith
  have cy := cos_atan2 _ _ _ hcp e1
  have sy := sin_atan2 _ _ _ hcp e1
  have cr := cos_atan2 _ _ _ hcp e2
  have sr := sin_atan2 _ _ _ hcp e2
  change Real.cos (toEuler q).2.2 = _ at cy
  change Real.sin (toEuler q).2.2 = _ at sy
  change Real.cos (toEuler q).1 = _ at cr
  change Real.sin (toEuler q).1 = _ at sr
  unfold toWorld yawBy pitchBy rollBy
  dsimp only
  rw [cy, sy, cr, sr, hsp]
  have hn : q.w * q.w + q.x * q.x + q.y * q.y + q.z * q.z = 1 := by
    unfold Quat.normSq at hu; linarith
  rw [hsp] at hcs
  generalize Real.cos p = c at *
  have hc2 : c ^ 2 = 1 - (2 * (q.w * q.y - q.z * q.x)) ^ 2 := by linarith
  have hne : c ≠ 0 := hcp.ne'
  obtain ⟨w, x, y, z⟩ := q
  simp only at *
  have hC : 1 - 2 * (y * y + z * z) = w * w + x * x - y * y - z * z := by linear_combination -hn
  have hD : 1 - 2 * (x * x + y * y) = w * w + z * z - x * x - y * y := by linear_combination -hn
  have hE : 1 - 2 * (x ^ 2 + z ^ 2) = w * w + y * y - x * x - z * z := by linear_combination -hn
  have hC' : 1 - 2 * (y ^ 2 + z ^ 2) = w * w + x * x - y * y - z * z := by linear_combination -hn
  have hD' : 1 - 2 * (x ^ 2 + y ^ 2) = w * w + z * z - x * x - y * y := by linear_combination -hn
  rw [hC, hD, hE, hC', hD']
  have i1 : (1 - (2 * (w * y - z * x)) ^ 2) * (2 * (x * y - w * z)) =
      (w * w + x * x - y * y - z * z) * (2 * (w * y - z * x)) * (2 * (w * x + y * z)) -
        2 * (w * z + x * y) * (w * w + z * z - x * x - y * y) := by
    have key : ((w * w + x * x + y * y + z * z) ^ 2 - (2 * (w * y - z * x)) ^ 2) * (2 * (x * y - w * z)) =
      (w * w + x * x - y * y - z * z) * (2 * (w * y - z * x)) * (2 * (w * x + y * z)) -
        (w * w + x * x + y * y + z * z) * (2 * (w * z + x * y) * (w * w + z * z - x * x - y * y)) := by ring
    rw [hn] at key
    linear_combination key
  have i2 : (1 - (2 * (w * y - z * x)) ^ 2) * (2 * (x * z + w * y)) =
      (w * w + x * x - y * y - z * z) * (2 * (w * y - z * x)) * (w * w + z * z - x * x - y * y) +
        2 * (w * z + x * y) * (2 * (w * x + y * z)) := by
    have key : ((w * w + x * x + y * y + z * z) ^ 2 - (2 * (w * y - z * x)) ^ 2) * (2 * (x * z + w * y)) =
      (w * w + x * x - y * y - z * z) * (2 * (w * y - z * x)) * (w * w + z * z - x * x - y * y) +
        (w * w + x * x + y * y + z * z) * (2 * (w * z + x * y) * (2 * (w * x + y * z))) := by ring
    rw [hn] at key
    linear_combination key
  have i3 : (1 - (2 * (w * y - z * x)) ^ 2) * (w * w + y * y - x * x - z * z) =
      2 * (w * z + x * y) * (2 * (w * y - z * x)) * (2 * (w * x + y * z)) +
        (w * w + x * x - y * y - z * z) * (w * w + z * z - x * x - y * y) := by
    have key : ((w * w + x * x + y * y + z * z) ^ 2 - (2 * (w * y - z * x)) ^ 2) * (w * w + y * y - x * x - z * z) =
      2 * (w * z + x * y) * (2 * (w * y - z * x)) * (2 * (w * x + y * z)) +
        (w * w + x * x + y * y + z * z) *
          ((w * w + x * x - y * y - z * z) * (w * w + z * z - x * x - y * y)) := by ring
    rw [hn] at key
    linear_combination key
  have i4 : (1 - (2 * (w * y - z * x)) ^ 2) * (2 * (y * z - w * x)) =
      2 * (w * z + x * y) * (2 * (w * y - z * x)) * (w * w + z * z - x * x - y * y) -
        (w * w + x * x - y * y - z * z) * (2 * (w * x + y * z)) := by
    have key : ((w * w + x * x + y * y + z * z) ^ 2 - (2 * (w * y - z * x)) ^ 2) * (2 * (y * z - w * x)) =
      2 * (w * z + x * y) * (2 * (w * y - z * x)) * (w * w + z * z - x * x - y * y) -
        (w * w + x * x + y * y + z * z) *
          ((w * w + x * x - y * y - z * z) * (2 * (w * x + y * z))) := by ring
    rw [hn] at key
    linear_combination key
  rw [← hc2] at i1 i2 i3 i4
  clear hC hD hE hC' hD' cy sy cr sr e1 e2 h1 h2 hn hu h hsp hcs hc2 r1 r2 hcp0
  have hs : 2 * (x * z - w * y) = -(2 * (w * y - z * x)) := by ring
  have ht : 2 * (y * z + w * x) = 2 * (w * x + y * z) := by ring
  have hq : 2 * (x * y + w * z) = 2 * (w * z + x * y) := by ring
  rw [hs, ht, hq]
  generalize 2 * (w * y - z * x) = s at *
  generalize 2 * (w * x + y * z) = sr at *
  generalize 2 * (w * z + x * y) = sy at *
  generalize w * w + x * x - y * y - z * z = cy at *
  generalize w * w + z * z - x * x - y * y = cr at *
  generalize 2 * (x * y - w * z) = r12 at *
  generalize 2 * (x * z + w * y) = r13 at *
  generalize w * w + y * y - x * x - z * z = r22 at *
  generalize 2 * (y * z - w * x) = r23 at *
  obtain ⟨vx, vy, vz⟩ := v
  simp only [Vector3d.mk.injEq]
  refine ⟨?_, ?_, ?_⟩
  · field_simp
    linear_combination vy * i1 + vz * i2
  · field_simp
    linear_combination vy * i3 + vz * i4
  · field_simp
    ring

/-- **C97.** After any messages, unless the first axis of the device is vertical, the reported roll, pitch and yaw describe the
orientation: a vector in the frame of the device is brought to the world frame by a turn by the roll about the first
axis, then by the pitch about the second, then by the yaw about the vertical. The time is that of the last message. -/
theorem C97_angles (c : CfConfig) (j1 j2 : SensorType × Int) (ms : List SensorMeasurement)
    (h : (toWorld (cfRun c j1 j2 ms).q ⟨1, 0, 0⟩).z ^ 2 ≠ 1) (v : Vector3d) :
    let o := getFusedOrientation (cfRun c j1 j2 ms)
    toWorld (cfRun c j1 j2 ms).q v = yawBy o.yaw (pitchBy o.pitch (rollBy o.roll v)) :=
  euler_rotation _ (cfInv_run c j1 j2 ms).unit h v

/-- **C97, where the angles fail.** When the first axis of the device points straight up or down, roll and yaw are 0 whatever the
orientation is. -/
theorem C97_vertical (q : Quat) (hu : q.normSq = 1) (h : (toWorld q ⟨1, 0, 0⟩).z ^ 2 = 1) :
    (toEuler q).1 = 0 ∧ (toEuler q).2.2 = 0 := by
  obtain ⟨h1, h2⟩ := sinp_sq q hu
  have hs : (2 * (q.w * q.y - q.z * q.x)) ^ 2 = 1 := by
    unfold toWorld at h
    dsimp only at h
    linear_combination h
  have z : ∀ a b : ℝ, a ^ 2 + b ^ 2 + 1 = 1 → a = 0 ∧ b = 0 := by
    intro a b hab
    have := sq_nonneg a
    have := sq_nonneg b
    exact ⟨pow_eq_zero_iff two_ne_zero |>.mp (by linarith), pow_eq_zero_iff two_ne_zero |>.mp (by linarith)⟩
  rw [hs] at h1 h2
  obtain ⟨a1, b1⟩ := z _ _ h1
  obtain ⟨a2, b2⟩ := z _ _ h2
  unfold toEuler atan2
  dsimp only
  rw [a1, b1, a2, b2]
  exact ⟨Complex.arg_zero, Complex.arg_zero⟩

/-- **C97, two orientations with the same angles.** Both have the first axis pointing down, but the second axes differ by a
quarter turn: the angles do not determine the orientation there. -/
theorem C97_vertical_witness : ∃ p q : Quat, p.normSq = 1 ∧ q.normSq = 1 ∧ toEuler p = toEuler q ∧
    toWorld p ⟨0, 1, 0⟩ = ⟨0, 1, 0⟩ ∧ toWorld q ⟨0, 1, 0⟩ = ⟨1, 0, 0⟩ := by
  have h2 : Real.sqrt 2 ^ 2 = 2 := Real.sq_sqrt (by norm_num)
  have h1 : (⟨Real.sqrt 2 / 2, 0, Real.sqrt 2 / 2, 0⟩ : Quat).normSq = 1 := by
    simp only [Quat.normSq]; linear_combination h2 / 2
  have h3 : (⟨1 / 2, 1 / 2, 1 / 2, -(1 / 2)⟩ : Quat).normSq = 1 := by
    simp only [Quat.normSq]; norm_num
  refine ⟨⟨Real.sqrt 2 / 2, 0, Real.sqrt 2 / 2, 0⟩, ⟨1 / 2, 1 / 2, 1 / 2, -(1 / 2)⟩, h1, h3, ?_, ?_, ?_⟩
  · have s1 : 2 * (Real.sqrt 2 / 2 * (Real.sqrt 2 / 2) - 0 * 0) = 1 := by linear_combination h2 / 2
    obtain ⟨a, b⟩ := C97_vertical _ h1 (by
      unfold toWorld; dsimp only
      linear_combination (Real.sqrt 2 ^ 2 / 4 + 1 / 2) * h2)
    obtain ⟨a', b'⟩ := C97_vertical _ h3 (by unfold toWorld; dsimp only; norm_num)
    have p : (toEuler ⟨Real.sqrt 2 / 2, 0, Real.sqrt 2 / 2, 0⟩).2.1 = Real.pi / 2 := by
      unfold toEuler; dsimp only; rw [s1]; norm_num
    have p' : (toEuler ⟨1 / 2, 1 / 2, 1 / 2, -(1 / 2)⟩).2.1 = Real.pi / 2 := by
      unfold toEuler; dsimp only; norm_num
    exact Prod.ext (a.trans a'.symm) (Prod.ext (p.trans p'.symm) (b.trans b'.symm))
  · unfold toWorld; simp
  · unfold toWorld; norm_num

/-- The hypothesis of `C97_angles` is met by a new filter. -/
example (c : CfConfig) (j1 j2 : SensorType × Int) : (toWorld (cfRun c j1 j2 []).q ⟨1, 0, 0⟩).z ^ 2 ≠ 1 := by
  simp [cfRun, cfInit, toWorld, Quat.one]

end Verif.Fusion
