import Verif.Fp.QuatLemmas
import Verif.Fp.Instance
import Verif.Fusion.OrientProps
import Verif.Vec.Model

/-! # C111: the orientation kept in floating point -/

namespace Verif.Fp

open Verif Verif.Pedo Verif.Fusion

/-! ## Specification -/

/-- The members of the filter on which the orientation depends. -/
def part (s : CfState) : FState := ⟨s.lastGyroTs, s.integralError, s.q⟩

/-- The distance of two quaternions. -/
noncomputable def apart (p q : Quat) : ℝ :=
  Real.sqrt ((p.w - q.w) ^ 2 + (p.x - q.x) ^ 2 + (p.y - q.y) ^ 2 + (p.z - q.z) ^ 2)

/-- The number of gyroscope messages. -/
def gyroCount (ms : List SensorMeasurement) : ℕ := (ms.filter (fun m => m.data.type = SensorType.GYROSCOPE)).length

/-! ## The model without rounding -/

theorem mulF_exact (q r : Quat) : mulF exact q r = q.mul r := rfl
theorem normalizedF_exact (q : Quat) : normalizedF exact q = q.normalized := rfl
theorem updateF_exact (q : Quat) (v : Vector3d) : updateF exact q v = updateQuaternion q v := rfl
theorem magnitudeF_exact (v : Vector3d) : magnitudeF exact v = magnitude v := rfl
theorem vnormalizedF_exact (v : Vector3d) : vnormalizedF exact v = vnormalized v := rfl
theorem vscaleF_exact (k : ℝ) (v : Vector3d) : vscaleF exact k v = vscale k v := rfl
theorem vaddF_exact (a b : Vector3d) : vaddF exact a b = vadd a b := rfl
theorem crossF_exact (a b : Vector3d) : crossF exact a b = cross a b := rfl
theorem integralF_exact (c : CfConfig) (a b : Vector3d) : integralF exact c a b = vadd a (integralTerm c b) := rfl
theorem rnd_exact_eq (x : ℝ) : exact.rnd x = x := rfl

theorem part_magn (c : CfConfig) (s : CfState) (m : SensorMeasurement) : magnF exact c (part s) m = part (updateUsingMagnetometer c s m) := by
  unfold magnF updateUsingMagnetometer
  simp only [mulF_exact, updateF_exact, magnitudeF_exact, vnormalizedF_exact, vscaleF_exact, crossF_exact, integralF_exact,
    rnd_exact_eq]
  by_cases h : magnitude (vnormalized m.data.values) < CF_DOUBLE_EPSILON
  · rw [if_pos h]
    exact if_pos h
  · rw [if_neg h]
    exact if_neg h

theorem part_update (c : CfConfig) (s : CfState) (m : SensorMeasurement) : fUpdate exact c (part s) m = part (cfUpdate c s m) := by
  unfold fUpdate cfUpdate
  cases h : m.data.type
  case MAGNETOMETER =>
    dsimp only
    by_cases h1 : s.lastGyroTs = -1
    · rw [if_pos (show (part s).lastGyroTs = -1 from h1), if_pos h1]
      exact part_magn c { s with magnLowPassed := lowPassFilter s.magnLowPassed m } m
    · rw [if_neg (show ¬ (part s).lastGyroTs = -1 from h1), if_neg h1]
      rfl
  case GYROSCOPE =>
    dsimp only
    by_cases h1 : s.lastGyroTs = -1
    · rw [if_pos (show (part s).lastGyroTs = -1 from h1), if_pos h1]; rfl
    · rw [if_neg (show ¬ (part s).lastGyroTs = -1 from h1), if_neg h1]; rfl
  all_goals rfl

/-- **C111.** Without rounding the model is the one the other theorems are about: what is compared below is the same program,
with and without rounding. -/
theorem C111_exact (c : CfConfig) (j1 j2 : SensorType × Int) (ms : List SensorMeasurement) :
    fRun exact c ms = part (cfRun c j1 j2 ms) := by
  induction ms using List.reverseRecOn with
  | nil => rfl
  | append_singleton ms m ih =>
    unfold fRun cfRun at *
    rw [List.foldl_append, List.foldl_append, ih]
    exact part_update c _ m

/-! ## The norm -/

variable (R : Rounding)

theorem fUpdate_q (c : CfConfig) (s : FState) (m : SensorMeasurement) :
    (fUpdate R c s m).q = s.q ∨ ∃ v, (fUpdate R c s m).q = updateF R s.q v := by
  unfold fUpdate
  cases m.data.type
  case ACCELEROMETER => exact Or.inr ⟨_, rfl⟩
  case GYROSCOPE =>
    dsimp only
    split_ifs <;> exact Or.inr ⟨_, rfl⟩
  case MAGNETOMETER =>
    dsimp only
    split_ifs
    · unfold magnF
      dsimp only
      split_ifs
      · exact Or.inl rfl
      · exact Or.inr ⟨_, rfl⟩
    · exact Or.inl rfl
  all_goals exact Or.inl rfl

theorem norm_run (c : CfConfig) (ms : List SensorMeasurement) : |‖toH (fRun R c ms).q‖ - 1| ≤ 6 * u := by
  have hu := u_pos
  have hus := u_small
  induction ms using List.reverseRecOn with
  | nil =>
    have : ‖toH (fRun R c []).q‖ = 1 := by
      rw [norm_toH]
      unfold fRun fInit Quat.one Quat.normSq
      norm_num
    rw [this]
    simp only [sub_self, abs_zero]
    positivity
  | append_singleton ms m ih =>
    have e : fRun R c (ms ++ [m]) = fUpdate R c (fRun R c ms) m := by
      unfold fRun; rw [List.foldl_append]; rfl
    rw [e]
    rcases fUpdate_q R c (fRun R c ms) m with h | ⟨v, h⟩
    · rw [h]; exact ih
    · rw [h]
      have := (abs_le.mp ih).1
      exact (update_err R _ v (by linarith)).1

/-- **C111.** After any messages, with any rounding, the norm of the orientation is one up to six units of `2⁻⁵³`: the rounding
errors of the normalisation do not add up. -/
theorem C111_unit (c : CfConfig) (ms : List SensorMeasurement) : |Real.sqrt (fRun R c ms).q.normSq - 1| ≤ 6 * u := by
  rw [← norm_toH]
  exact norm_run R c ms

/-! ## The accumulated error -/

theorem apart_eq (p q : Quat) : apart p q = ‖toH p - toH q‖ := by
  have : ‖toH p - toH q‖ ^ 2 = (p.w - q.w) ^ 2 + (p.x - q.x) ^ 2 + (p.y - q.y) ^ 2 + (p.z - q.z) ^ 2 := by
    rw [sq, ← Quaternion.normSq_eq_norm_mul_self, Quaternion.normSq_def', Quaternion.re_sub, Quaternion.imI_sub,
      Quaternion.imJ_sub, Quaternion.imK_sub]
    rfl
  unfold apart
  rw [← this, Real.sqrt_sq (norm_nonneg _)]

/-- The time step. -/
theorem dt_err (a b : Int) : |dtF R a b - ((a - b : Int) : ℝ) / 1000.0| ≤ 2.2 * u * |((a - b : Int) : ℝ) / 1000.0| := by
  unfold dtF
  by_cases h : a - b = 0
  · rw [h]; simp [R.zero]
  have hu := u_pos
  have ht := tiny_u
  have htp := tiny_pos
  have h1 : (1 : ℝ) ≤ |((a - b : Int) : ℝ)| := by
    have : (1 : ℤ) ≤ |a - b| := Int.one_le_abs h
    exact_mod_cast this
  generalize ((a - b : Int) : ℝ) = n at *
  have e1 := rnd_exact R |n| n le_rfl
  have a1 : |n / 1000.0| = |n| / 1000 := by rw [abs_div]; norm_num
  have e2 : |R.rnd n / 1000.0 - n / 1000.0| ≤ 1.01 * u * |n / 1000.0| + 1 * tiny := by
    rw [← sub_div, abs_div, a1]
    have : |(1000.0 : ℝ)| = 1000 := by norm_num
    rw [this]
    linarith
  have e3 := rnd_step R _ _ _ _ _ (by norm_num) (by norm_num) (by norm_num) le_rfl e2
  rw [a1] at e3 ⊢
  have : u * 1 ≤ u * |n| := mul_le_mul_of_nonneg_left h1 hu.le
  linarith

/-- One component of the rotation vector. -/
theorem omega_err (x dt dt' : ℝ) (h : |dt' - dt| ≤ 2.2 * u * |dt|) :
    |R.rnd (R.rnd (x * dt') + R.rnd (0 * dt')) - x * dt| ≤ 4.3 * u * |x * dt| + 4 * tiny := by
  rw [zero_mul, R.zero, add_zero]
  have e1 : |x * dt' - x * dt| ≤ 2.2 * u * |x * dt| + 0 * tiny := by
    rw [← mul_sub, abs_mul, abs_mul]
    have := mul_le_mul_of_nonneg_left h (abs_nonneg x)
    linarith
  have e2 := rnd_step R _ _ _ _ _ (by norm_num) (by norm_num) le_rfl le_rfl e1
  have e3 := rnd_step R _ _ _ _ _ (by norm_num) (by norm_num) (by norm_num) le_rfl e2
  exact weaken (abs_nonneg _) (by norm_num) (by norm_num) e3

/-- The effect of an error of the rotation vector. -/
theorem turn_err (v v' : Vector3d) (k : ℝ) (hk : 0 ≤ k)
    (hx : |v'.x - v.x| ≤ k * u * |v.x| + 4 * tiny) (hy : |v'.y - v.y| ≤ k * u * |v.y| + 4 * tiny)
    (hz : |v'.z - v.z| ≤ k * u * |v.z| + 4 * tiny) : ‖dir (turn v) - dir (turn v')‖ ≤ (4 * k + 0.1) * u := by
  have hu := u_pos
  have ht := tiny_u
  have htp := tiny_pos
  have h1 := one_le_turn v
  have h2 := half_le_turn v
  have hd := dir_sub (turn v) (turn v') (by linarith) (by linarith [one_le_turn v'])
  obtain ⟨-, c2, c3, c4⟩ := comp_le (Quat.ofVec v)
  have hb : ‖turn v - turn v'‖ ≤ 2 * (k * u * ‖turn v‖ + 2 * tiny) := by
    have key : ∀ a b : ℝ, |b - a| ≤ k * u * |a| + 4 * tiny → |a| ≤ ‖toH (Quat.ofVec v)‖ →
        |a / 2 - b / 2| ≤ k * u * ‖turn v‖ + 2 * tiny := by
      intro a b hab ha
      rw [← sub_div, abs_div, abs_sub_comm, show |(2 : ℝ)| = 2 by norm_num]
      have : k * u * |a| ≤ k * u * (2 * ‖turn v‖) := mul_le_mul_of_nonneg_left (by linarith) (by positivity)
      linarith
    apply norm_le
    · positivity
    · rw [Quaternion.re_sub]
      show |(1 : ℝ) - 1| ≤ _
      rw [sub_self, abs_zero]; positivity
    · exact key _ _ hx c2
    · exact key _ _ hy c3
    · exact key _ _ hz c4
  refine hd.trans ?_
  rw [div_le_iff₀ (by linarith)]
  have : u * 1 ≤ u * ‖turn v‖ := mul_le_mul_of_nonneg_left h1 hu.le
  have : 0 ≤ k * u * ‖turn v‖ := by positivity
  linarith

theorem update_apart (q p : Quat) (v v' : Vector3d) (k D : ℝ) (hk : 0 ≤ k) (hq : ‖toH q‖ = 1)
    (hp : |‖toH p‖ - 1| ≤ 6 * u) (hD : ‖toH p - toH q‖ ≤ D)
    (hv : ‖dir (turn v) - dir (turn v')‖ ≤ k) :
    ‖toH (updateF R p v') - toH (updateQuaternion q v)‖ ≤ D + 43 * u + k := by
  have hu := u_pos
  have hus := u_small
  have hp2 : 1 / 2 ≤ ‖toH p‖ := by have := (abs_le.mp hp).1; linarith
  have e1 := (update_err R p v' hp2).2
  rw [update_eq q v (by rw [hq]; norm_num), dir_unit _ hq]
  have n1 := norm_dir (turn v) (by linarith [one_le_turn v])
  have n2 := norm_dir (turn v') (by linarith [one_le_turn v'])
  have nd := dir_near (toH p) (by linarith)
  have e2 : ‖dir (toH p) - toH q‖ ≤ D + 6 * u := by
    have := norm_sub_le_norm_sub_add_norm_sub (dir (toH p)) (toH p) (toH q)
    linarith
  have e3 : ‖dir (toH p) * dir (turn v') - toH q * dir (turn v)‖ ≤ D + 6 * u + k := by
    have e : dir (toH p) * dir (turn v') - toH q * dir (turn v) =
        (dir (toH p) - toH q) * dir (turn v') + toH q * (dir (turn v') - dir (turn v)) := by noncomm_ring
    rw [e]
    refine (norm_add_le _ _).trans ?_
    rw [norm_mul, norm_mul, n2, hq, norm_sub_rev (dir (turn v'))]
    linarith
  have := norm_sub_le_norm_sub_add_norm_sub (toH (updateF R p v')) (dir (toH p) * dir (turn v')) (toH q * dir (turn v))
  linarith

/-- What the two filters share. -/
theorem gyro_run (c : CfConfig) (j1 j2 : SensorType × Int) (ms : List SensorMeasurement)
    (h : ∀ m ∈ ms, m.data.type ≠ SensorType.ACCELEROMETER ∧ m.data.type ≠ SensorType.MAGNETOMETER) :
    (fRun R c ms).lastGyroTs = (cfRun c j1 j2 ms).lastGyroTs ∧ (fRun R c ms).integralError = ⟨0, 0, 0⟩ ∧
    (cfRun c j1 j2 ms).integralError = ⟨0, 0, 0⟩ ∧
    ‖toH (fRun R c ms).q - toH (cfRun c j1 j2 ms).q‖ ≤ gyroCount ms * (61 * u) := by
  have hu := u_pos
  induction ms using List.reverseRecOn with
  | nil => exact ⟨rfl, rfl, rfl, by
      have : toH (fRun R c []).q - toH (cfRun c j1 j2 []).q = 0 := sub_self _
      rw [this, norm_zero]; positivity⟩
  | append_singleton ms m ih =>
    obtain ⟨i1, i2, i3, i4⟩ := ih (fun x hx => h x (List.mem_append_left _ hx))
    have hm := h m (by simp)
    have e : fRun R c (ms ++ [m]) = fUpdate R c (fRun R c ms) m := by
      unfold fRun; rw [List.foldl_append]; rfl
    rw [e, run_snoc]
    have hn : gyroCount (ms ++ [m]) = gyroCount ms + if m.data.type = SensorType.GYROSCOPE then 1 else 0 := by
      unfold gyroCount
      rw [List.filter_append, List.length_append]
      by_cases h : m.data.type = SensorType.GYROSCOPE <;> simp [h]
    have hnorm := norm_run R c ms
    have hone : ‖toH (cfRun c j1 j2 ms).q‖ = 1 := by
      rw [norm_toH, (cfInv_run c j1 j2 ms).1, Real.sqrt_one]
    generalize fRun R c ms = s at *
    generalize cfRun c j1 j2 ms = s' at *
    rw [hn]
    unfold fUpdate cfUpdate
    cases ht : m.data.type
    case ACCELEROMETER => exact absurd ht hm.1
    case MAGNETOMETER => exact absurd ht hm.2
    case GYROSCOPE =>
      dsimp only
      rw [i1, if_pos rfl]
      have main : ∀ (a : FState) (b : CfState), a.lastGyroTs = b.lastGyroTs → a.integralError = ⟨0, 0, 0⟩ → b.integralError = ⟨0, 0, 0⟩ →
          a.q = s.q → b.q = s'.q →
          (gyroF R a m).lastGyroTs = (updateUsingGyroscope b m).lastGyroTs ∧ (gyroF R a m).integralError = ⟨0, 0, 0⟩ ∧
          (updateUsingGyroscope b m).integralError = ⟨0, 0, 0⟩ ∧
          ‖toH (gyroF R a m).q - toH (updateUsingGyroscope b m).q‖ ≤ ((gyroCount ms + 1 : ℕ) : ℝ) * (61 * u) := by
        intro a b h1 h2 h3 h4 h5
        refine ⟨rfl, h2, h3, ?_⟩
        unfold gyroF updateUsingGyroscope
        dsimp only
        rw [h1, h2, h3, h4, h5]
        have hdt := dt_err R m.ts b.lastGyroTs
        generalize dtF R m.ts b.lastGyroTs = dt' at *
        generalize ((m.ts - b.lastGyroTs : Int) : ℝ) / 1000.0 = dt at *
        have hv := turn_err (vadd (vscale dt m.data.values) (vscale dt ⟨0, 0, 0⟩))
          (vaddF R (vscaleF R dt' m.data.values) (vscaleF R dt' ⟨0, 0, 0⟩)) 4.3 (by norm_num)
          (by have := omega_err R m.data.values.x dt dt' hdt
              simpa [vadd, vscale, vaddF, vscaleF] using this)
          (by have := omega_err R m.data.values.y dt dt' hdt
              simpa [vadd, vscale, vaddF, vscaleF] using this)
          (by have := omega_err R m.data.values.z dt dt' hdt
              simpa [vadd, vscale, vaddF, vscaleF] using this)
        have := update_apart R _ _ _ _ _ _ (by positivity) hone hnorm i4 hv
        push_cast
        linarith
      by_cases h1 : s'.lastGyroTs = -1
      · rw [if_pos h1, if_pos h1]
        exact main _ _ rfl i2 i3 rfl rfl
      · rw [if_neg h1, if_neg h1]
        exact main _ _ i1 i2 i3 rfl rfl
    all_goals
      refine ⟨i1, i2, i3, ?_⟩
      simpa using i4

/-- **C111.** With a gyroscope alone, the orientation kept in floating point and the one of exact arithmetic differ, after any
number of messages, by at most `61 · 2⁻⁵³` for each gyroscope message. -/
theorem C111_gyro (c : CfConfig) (j1 j2 : SensorType × Int) (ms : List SensorMeasurement)
    (h : ∀ m ∈ ms, m.data.type ≠ SensorType.ACCELEROMETER ∧ m.data.type ≠ SensorType.MAGNETOMETER) :
    apart (fRun R c ms).q (cfRun c j1 j2 ms).q ≤ gyroCount ms * (61 * u) := by
  rw [apart_eq]
  exact (gyro_run R c j1 j2 ms h).2.2.2

/-! ## Directions in the world -/

theorem toH_conj (q : Quat) : toH q.conj = star (toH q) := by
  apply QuaternionAlgebra.ext <;> simp only [Quaternion.re_star, Quaternion.imI_star, Quaternion.imJ_star, Quaternion.imK_star] <;> rfl

theorem norm_vec (v : Vector3d) : ‖toH (Quat.ofVec v)‖ = magnitude v := by
  rw [norm_toH]
  unfold Quat.ofVec Quat.normSq magnitude
  congr 1
  ring

/-- The rotated vector as a product of quaternions. -/
theorem world_mul (q : Quat) (h : q.normSq = 1) (x : Vector3d) :
    toH (Quat.ofVec (toWorld q x)) = toH q * toH (Quat.ofVec x) * star (toH q) := by
  rw [← sand_unit q h, ← toH_conj, ← toH_mul, ← toH_mul]
  congr 1
  unfold sand Quat.ofVec Quat.toVec
  ext
  · unfold Quat.mul Quat.conj; dsimp only; ring
  all_goals rfl

theorem world_apart (p q : Quat) (hp : p.normSq = 1) (hq : q.normSq = 1) (x : Vector3d) :
    magnitude (Vec.vsub (toWorld p x) (toWorld q x)) ≤ 2 * ‖toH p - toH q‖ * magnitude x := by
  have np : ‖toH p‖ = 1 := by rw [norm_toH, hp, Real.sqrt_one]
  have nq : ‖toH q‖ = 1 := by rw [norm_toH, hq, Real.sqrt_one]
  have e : toH (Quat.ofVec (Vec.vsub (toWorld p x) (toWorld q x))) =
      (toH p - toH q) * toH (Quat.ofVec x) * star (toH p) + toH q * toH (Quat.ofVec x) * star (toH p - toH q) := by
    have : toH (Quat.ofVec (Vec.vsub (toWorld p x) (toWorld q x))) = toH (Quat.ofVec (toWorld p x)) - toH (Quat.ofVec (toWorld q x)) := by
      apply QuaternionAlgebra.ext
      · rw [Quaternion.re_sub]; exact (sub_self _).symm
      · rw [Quaternion.imI_sub]; rfl
      · rw [Quaternion.imJ_sub]; rfl
      · rw [Quaternion.imK_sub]; rfl
    rw [this, world_mul p hp, world_mul q hq, star_sub]
    noncomm_ring
  rw [← norm_vec, e]
  refine (norm_add_le _ _).trans ?_
  rw [norm_mul, norm_mul, norm_mul, norm_mul, norm_star, norm_star, np, nq, norm_vec]
  linarith

theorem normalized_unit (q : Quat) (h : 1 / 2 ≤ ‖toH q‖) : q.normalized.normSq = 1 := by
  rw [← norm_sq_toH, normalized_eq q (by linarith [eps_small]), norm_dir _ (by linarith), one_pow]

/-- **C111.** So any direction of the device is seen in the world where exact arithmetic sees it, up to `2 (61 n + 6) · 2⁻⁵³` of
its length after `n` gyroscope messages: less than `10⁻⁶` after fifty million of them. -/
theorem C111_world (c : CfConfig) (j1 j2 : SensorType × Int) (ms : List SensorMeasurement)
    (h : ∀ m ∈ ms, m.data.type ≠ SensorType.ACCELEROMETER ∧ m.data.type ≠ SensorType.MAGNETOMETER) (x : Vector3d) :
    magnitude (Vec.vsub (toWorld (fRun R c ms).q.normalized x) (toWorld (cfRun c j1 j2 ms).q x)) ≤
      2 * ((61 * gyroCount ms + 6) * u) * magnitude x ∧
    (gyroCount ms ≤ 50000000 → magnitude (Vec.vsub (toWorld (fRun R c ms).q.normalized x) (toWorld (cfRun c j1 j2 ms).q x)) ≤
      magnitude x / 10 ^ 6) := by
  have hu := u_pos
  have hus := u_small
  have hn := norm_run R c ms
  have hh : 1 / 2 ≤ ‖toH (fRun R c ms).q‖ := by have := (abs_le.mp hn).1; linarith
  have hg := (gyro_run R c j1 j2 ms h).2.2.2
  have hone := (cfInv_run c j1 j2 ms).1
  have hb := world_apart _ _ (normalized_unit _ hh) hone x
  have hd : ‖toH (fRun R c ms).q.normalized - toH (cfRun c j1 j2 ms).q‖ ≤ (61 * gyroCount ms + 6) * u := by
    rw [normalized_eq _ (by linarith [eps_small])]
    have h1 := dir_near (toH (fRun R c ms).q) (by linarith)
    have h2 := norm_sub_le_norm_sub_add_norm_sub (dir (toH (fRun R c ms).q)) (toH (fRun R c ms).q) (toH (cfRun c j1 j2 ms).q)
    linarith
  have hm := magnitude_nonneg x
  have main := hb.trans (mul_le_mul_of_nonneg_right (mul_le_mul_of_nonneg_left hd (by norm_num : (0 : ℝ) ≤ 2)) hm)
  refine ⟨main, fun hc => main.trans ?_⟩
  have hc' : (gyroCount ms : ℝ) ≤ 50000000 := by exact_mod_cast hc
  have hu2 : u ≤ 1 / (9 * 10 ^ 15) := by unfold u; norm_num
  have : 2 * ((61 * gyroCount ms + 6) * u) ≤ 1 / 10 ^ 6 := by
    calc 2 * ((61 * (gyroCount ms : ℝ) + 6) * u) ≤ 2 * ((61 * 50000000 + 6) * (1 / (9 * 10 ^ 15))) := by
          apply mul_le_mul_of_nonneg_left _ (by norm_num)
          apply mul_le_mul (by linarith) hu2 hu.le (by norm_num)
      _ ≤ 1 / 10 ^ 6 := by norm_num
  calc _ ≤ 1 / 10 ^ 6 * magnitude x := mul_le_mul_of_nonneg_right this hm
    _ = _ := by ring

/-- The hypotheses are met: two gyroscope messages, rounding to the nearest number of 53 digits, which is not the arithmetic
of ℝ. -/
example : (∀ m ∈ [(⟨⟨SensorType.GYROSCOPE, ⟨0.1, 0, 0.3⟩⟩, 1000⟩ : SensorMeasurement), ⟨⟨SensorType.GYROSCOPE, ⟨0.2, 0, 0.1⟩⟩, 1010⟩],
      m.data.type ≠ SensorType.ACCELEROMETER ∧ m.data.type ≠ SensorType.MAGNETOMETER) ∧
    gyroCount [(⟨⟨SensorType.GYROSCOPE, ⟨0.1, 0, 0.3⟩⟩, 1000⟩ : SensorMeasurement), ⟨⟨SensorType.GYROSCOPE, ⟨0.2, 0, 0.1⟩⟩, 1010⟩] = 2 ∧
    nearest.rnd (1 / 3) ≠ 1 / 3 := by
  refine ⟨by simp, by simp [gyroCount], ?_⟩
  intro h
  have h1 : ulpExp (1 / 3) = -54 := by
    unfold ulpExp
    rw [if_neg (by norm_num)]
    have : Int.log 2 |(1 / 3 : ℝ)| = -2 := by
      rw [abs_of_pos (by norm_num)]
      apply le_antisymm
      · have := (Int.lt_zpow_iff_log_lt (b := 2) (by norm_num) (by norm_num : (0 : ℝ) < 1 / 3) (x := -1)).mp (by norm_num)
        omega
      · exact (Int.zpow_le_iff_le_log (b := 2) (by norm_num) (by norm_num : (0 : ℝ) < 1 / 3) (x := -2)).mp (by norm_num)
    rw [this]
    norm_num
  have h2 : nearest.rnd (1 / 3) = (round ((1 / 3 : ℝ) / 2 ^ (-54 : ℤ)) : ℤ) * (2 : ℝ) ^ (-54 : ℤ) := by
    show nearestRnd (1 / 3) = _
    unfold nearestRnd
    rw [h1]
  rw [h2] at h
  generalize round ((1 / 3 : ℝ) / 2 ^ (-54 : ℤ)) = k at h
  have h3 : 3 * k = (2 : ℤ) ^ 54 := by
    have : (3 : ℝ) * (k : ℝ) = 2 ^ 54 := by
      rw [zpow_neg] at h
      field_simp at h
      rw [mul_comm]
      exact_mod_cast h
    exact_mod_cast this
  omega

end Verif.Fp
