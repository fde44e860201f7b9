import Verif.Fusion.OrientLemmas
import Mathlib.Analysis.SpecialFunctions.Trigonometric.Arctan
import Mathlib.Analysis.Calculus.Deriv.MeanValue
import Mathlib.Analysis.SpecialFunctions.Trigonometric.ArctanDeriv
import Mathlib.Analysis.SpecialFunctions.Trigonometric.Bounds
import Mathlib.Analysis.SpecificLimits.Basic

/-!
# Property theorems for the orientation kept by the complementary filter: C90 to C93
-/

namespace Verif.Fusion

open Verif Verif.Pedo

/-! ## Rotations by the angle of an update -/

theorem cos_turn (t : ℝ) : Real.cos (2 * Real.arctan t) = (1 - t ^ 2) / (1 + t ^ 2) := by
  have h : (0 : ℝ) < 1 + t ^ 2 := by positivity
  rw [Real.cos_two_mul, Real.cos_sq_arctan]
  field_simp
  ring

theorem sin_turn (t : ℝ) : Real.sin (2 * Real.arctan t) = 2 * t / (1 + t ^ 2) := by
  have h : (0 : ℝ) < 1 + t ^ 2 := by positivity
  rw [Real.sin_two_mul, Real.sin_arctan, Real.cos_arctan]
  have hs : Real.sqrt (1 + t ^ 2) ^ 2 = 1 + t ^ 2 := Real.sq_sqrt h.le
  have h0 : Real.sqrt (1 + t ^ 2) ≠ 0 := (Real.sqrt_pos.mpr h).ne'
  field_simp
  rw [hs]

/-- An update by `θ` times a unit vector turns by `2 arctan (θ/2)` about that vector. -/
theorem update_rotates (q : Quat) (h : q.normSq = 1) (n : Vector3d) (hn : dot n n = 1) (θ : ℝ) (r : Vector3d)
    (hx : r.x = θ * n.x) (hy : r.y = θ * n.y) (hz : r.z = θ * n.z) (v : Vector3d) :
    toWorld (updateQuaternion q r) v = toWorld q (rotateAbout n (2 * Real.arctan (θ / 2)) v) := by
  rw [toWorld_update q h]
  have hd : dot r r = θ ^ 2 := by
    have : dot r r = θ ^ 2 * dot n n := by simp only [dot]; rw [hx, hy, hz]; ring
    rw [this, hn]; ring
  have hv : dot r v = θ * dot n v := by simp only [dot]; rw [hx, hy, hz]; ring
  have hp : (0 : ℝ) < 1 + (θ / 2) ^ 2 := by positivity
  have hp' : (0 : ℝ) < 4 + θ ^ 2 := by positivity
  rw [hd, hv]
  congr 1
  unfold rotateAbout
  rw [cos_turn, sin_turn, hx, hy, hz]
  apply vec_ext <;> dsimp only <;> field_simp <;> ring

/-! ## C90 -/

/-- Without the integral gain the integral error is never used. -/
theorem integral_zero (c : CfConfig) (hki : c.ki ≤ CF_DOUBLE_EPSILON) (j1 j2 : SensorType × Int)
    (ms : List SensorMeasurement) : (cfRun c j1 j2 ms).integralError = ⟨0, 0, 0⟩ := by
  induction ms using List.reverseRecOn with
  | nil => rfl
  | append_singleton ms m ih =>
    unfold cfRun at *
    rw [List.foldl_append]
    simp only [List.foldl_cons, List.foldl_nil]
    generalize ms.foldl (cfUpdate c) (cfInit j1 j2) = s at *
    have ht : ∀ e, integralTerm c e = ⟨0, 0, 0⟩ := fun e => by
      unfold integralTerm
      rw [if_neg (not_lt.mpr hki)]
    have hz : vadd (⟨0, 0, 0⟩ : Vector3d) ⟨0, 0, 0⟩ = ⟨0, 0, 0⟩ := by simp [vadd]
    unfold cfUpdate
    cases m.data.type with
    | ACCELEROMETER =>
      simp only [updateUsingAccelerometer]
      rw [ht, ih, hz]
    | MAGNETOMETER =>
      simp only [updateUsingMagnetometer]
      split_ifs
      · exact ih
      · simp only [ht, ih, hz]
      · exact ih
    | GYROSCOPE =>
      simp only [updateUsingGyroscope]
      split_ifs <;> exact ih
    | BAROMETER => exact ih
    | LOCATION => exact ih
    | ORIENTATION => exact ih

theorem run_snoc (c : CfConfig) (j1 j2 : SensorType × Int) (ms : List SensorMeasurement) (m : SensorMeasurement) :
    cfRun c j1 j2 (ms ++ [m]) = cfUpdate c (cfRun c j1 j2 ms) m := by
  unfold cfRun
  rw [List.foldl_append]
  rfl

theorem run_append (c : CfConfig) (j1 j2 : SensorType × Int) (ms l : List SensorMeasurement) :
    cfRun c j1 j2 (ms ++ l) = l.foldl (cfUpdate c) (cfRun c j1 j2 ms) := by
  unfold cfRun
  rw [List.foldl_append]

/-- The orientation after a gyroscope message. -/
theorem gyro_update (c : CfConfig) (s : CfState) (m : SensorMeasurement) (hm : m.data.type = SensorType.GYROSCOPE)
    (h0 : s.integralError = ⟨0, 0, 0⟩) :
    (cfUpdate c s m).q = updateQuaternion s.q (vscale
      (((m.ts - (if s.lastGyroTs = -1 then m.ts else s.lastGyroTs) : Int) : ℝ) / 1000) m.data.values) := by
  unfold cfUpdate
  rw [hm]
  have hz : ∀ k (v : Vector3d), vadd (vscale k v) (vscale k ⟨0, 0, 0⟩) = vscale k v := fun k v => by
    simp [vadd, vscale]
  have he : (1000.0 : ℝ) = 1000 := by norm_num
  by_cases hc : s.lastGyroTs = -1
  · simp only [if_pos hc, updateUsingGyroscope, h0, hz, he]
  · simp only [if_neg hc, updateUsingGyroscope, h0, hz, he]

/-- **C90.** A gyroscope message whose rate is `ω` about the axis `n` of the device, following the
gyroscope message `g`, turns the orientation about that axis, seen from the device, by
`2 arctan (ω Δt / 2)` where Δt is the time since `g` in seconds: whatever was fixed to the device is
first rotated by this angle and then placed in the world as before.  Whatever the other messages
were, for a filter without the integral gain. -/
theorem C90_step (c : CfConfig) (hki : c.ki ≤ CF_DOUBLE_EPSILON) (j1 j2 : SensorType × Int)
    (ms : List SensorMeasurement) (hts : ∀ m ∈ ms, m.data.type = SensorType.GYROSCOPE → m.ts ≠ -1)
    (g m : SensorMeasurement)
    (hg : (ms.filter (fun m => m.data.type = SensorType.GYROSCOPE)).getLast? = some g)
    (hm : m.data.type = SensorType.GYROSCOPE) (n : Vector3d) (hn : dot n n = 1) (ω : ℝ)
    (hω : m.data.values = ⟨ω * n.x, ω * n.y, ω * n.z⟩) (v : Vector3d) :
    toWorld (cfRun c j1 j2 (ms ++ [m])).q v =
      toWorld (cfRun c j1 j2 ms).q (rotateAbout n (turn ω (m.ts - g.ts)) v) := by
  rw [run_snoc, gyro_update c _ m hm (integral_zero c hki j1 j2 ms)]
  have hl := gyro_seen c j1 j2 ms hts
  rw [hg] at hl
  simp only [Option.map_some, Option.getD_some] at hl
  have hgm : g ∈ ms ∧ g.data.type = SensorType.GYROSCOPE := by
    have := List.mem_of_getLast? hg
    simpa using this
  rw [hl, if_neg (hts g hgm.1 hgm.2)]
  unfold turn
  apply update_rotates _ (cfInv_run c j1 j2 ms).unit n hn
  all_goals
    rw [hω]
    simp only [vscale]
    push_cast
    ring

/-- **C90.** The first gyroscope message turns nothing: there is no time to integrate over. -/
theorem C90_first (c : CfConfig) (hki : c.ki ≤ CF_DOUBLE_EPSILON) (j1 j2 : SensorType × Int)
    (ms : List SensorMeasurement) (hno : ∀ m ∈ ms, m.data.type ≠ SensorType.GYROSCOPE) (m : SensorMeasurement)
    (hm : m.data.type = SensorType.GYROSCOPE) :
    (cfRun c j1 j2 (ms ++ [m])).q = (cfRun c j1 j2 ms).q := by
  rw [run_snoc, gyro_update c _ m hm (integral_zero c hki j1 j2 ms)]
  have hl := gyro_seen c j1 j2 ms (fun x hx h => absurd h (hno x hx))
  have hf : ms.filter (fun m => m.data.type = SensorType.GYROSCOPE) = [] := by
    rw [List.filter_eq_nil_iff]
    intro x hx
    simpa using hno x hx
  rw [hf] at hl
  simp only [List.getLast?_nil, Option.map_none, Option.getD_none] at hl
  rw [hl, if_pos rfl]
  have hu := (cfInv_run c j1 j2 ms).unit
  have h0 : vscale (((m.ts - m.ts : Int) : ℝ) / 1000) m.data.values = ⟨0, 0, 0⟩ := by simp [vscale]
  rw [h0]
  generalize (cfRun c j1 j2 ms).q = q at *
  unfold updateQuaternion
  rw [normalized_eq _ (update_pre q _ hu), update_eq_mul]
  have : (q.mul ⟨1, (0 : ℝ) / 2, 0 / 2, 0 / 2⟩) = q := by
    ext <;> simp [Quat.mul]
  rw [this, hu]
  ext <;> simp

theorem totalTurn_append (t : Int) (l : List SensorMeasurement) (m : SensorMeasurement) :
    totalTurn t (l ++ [m]) = totalTurn t l + turn m.data.values.z (m.ts - ((l.getLast?).map Stamped.ts).getD t) := by
  induction l generalizing t with
  | nil => simp [totalTurn]
  | cons x l ih =>
    rw [List.cons_append, totalTurn, totalTurn, ih]
    rw [add_assoc]
    congr 3
    cases l with
    | nil => simp
    | cons y l =>
      rw [List.getLast?_cons_cons, List.getLast?_eq_getLast_of_ne_nil (by simp)]
      rfl

theorem yaw_flat (θ : ℝ) : SameAngle (toEuler ⟨Real.cos (θ / 2), 0, 0, Real.sin (θ / 2)⟩).2.2 θ := by
  have h1 : Real.cos θ = 1 - 2 * (0 * 0 + Real.sin (θ / 2) * Real.sin (θ / 2)) := by
    have := Real.cos_two_mul (θ / 2)
    rw [mul_div_cancel₀ θ two_ne_zero] at this
    have h2 := Real.sin_sq_add_cos_sq (θ / 2)
    rw [this]
    linear_combination 2 * h2
  have h2 : Real.sin θ = 2 * (Real.cos (θ / 2) * Real.sin (θ / 2) + 0 * 0) := by
    have := Real.sin_two_mul (θ / 2)
    rw [mul_div_cancel₀ θ two_ne_zero] at this
    rw [this]
    ring
  have h3 := Complex.arg_cos_add_sin_mul_I_sub θ
  refine ⟨⌊(Real.pi - θ) / (2 * Real.pi)⌋, ?_⟩
  unfold toEuler atan2
  dsimp only
  rw [← h1, ← h2]
  have : (⟨Real.cos θ, Real.sin θ⟩ : ℂ) = Complex.cos θ + Complex.sin θ * Complex.I := by
    apply Complex.ext <;> simp [← Complex.ofReal_cos, ← Complex.ofReal_sin]
  rw [this]
  linarith

theorem update_flat (θ x : ℝ) :
    updateQuaternion ⟨Real.cos (θ / 2), 0, 0, Real.sin (θ / 2)⟩ ⟨0, 0, x⟩ =
      ⟨Real.cos ((θ + 2 * Real.arctan (x / 2)) / 2), 0, 0, Real.sin ((θ + 2 * Real.arctan (x / 2)) / 2)⟩ := by
  have hu : (⟨Real.cos (θ / 2), 0, 0, Real.sin (θ / 2)⟩ : Quat).normSq = 1 := by
    simp only [Quat.normSq]
    linear_combination Real.sin_sq_add_cos_sq (θ / 2)
  unfold updateQuaternion
  rw [normalized_eq _ (update_pre _ _ hu), update_eq_mul, normSq_mul, hu, one_mul]
  have hn : (⟨1, (0 : ℝ) / 2, 0 / 2, x / 2⟩ : Quat).normSq = 1 + (x / 2) ^ 2 := by simp [Quat.normSq]
  rw [hn, show (θ + 2 * Real.arctan (x / 2)) / 2 = θ / 2 + Real.arctan (x / 2) by ring, Real.cos_add, Real.sin_add,
    Real.cos_arctan, Real.sin_arctan]
  ext <;> simp only [Quat.mul] <;> ring

/-- **C90.** A device that only turns about the vertical: after any sequence of messages without
accelerometer and magnetometer in which every gyroscope message reports a rotation about the
vertical, the heading of the filter is, up to whole turns, the sum of the angles of the gyroscope
messages, clockwise positive. -/
theorem C90_flat (c : CfConfig) (j1 j2 : SensorType × Int) (ms : List SensorMeasurement)
    (hty : ∀ m ∈ ms, m.data.type ≠ SensorType.ACCELEROMETER ∧ m.data.type ≠ SensorType.MAGNETOMETER)
    (hz : ∀ m ∈ ms, m.data.type = SensorType.GYROSCOPE → m.data.values.x = 0 ∧ m.data.values.y = 0 ∧ m.ts ≠ -1)
    (g : SensorMeasurement) (gs : List SensorMeasurement)
    (hg : ms.filter (fun m => m.data.type = SensorType.GYROSCOPE) = g :: gs) :
    SameAngle (getFusedAzimuth (cfRun c j1 j2 ms)) (-totalTurn g.ts gs) ∧
      SameAngle (cfRun c j1 j2 ms).gyroHeading (-totalTurn g.ts gs) := by
  have key : ∀ ms : List SensorMeasurement,
      (∀ m ∈ ms, m.data.type ≠ SensorType.ACCELEROMETER ∧ m.data.type ≠ SensorType.MAGNETOMETER) →
      (∀ m ∈ ms, m.data.type = SensorType.GYROSCOPE → m.data.values.x = 0 ∧ m.data.values.y = 0 ∧ m.ts ≠ -1) →
      (cfRun c j1 j2 ms).integralError = ⟨0, 0, 0⟩ ∧
      match ms.filter (fun m => m.data.type = SensorType.GYROSCOPE) with
      | [] => (cfRun c j1 j2 ms).q = Quat.one
      | g :: gs => (cfRun c j1 j2 ms).q =
          ⟨Real.cos (totalTurn g.ts gs / 2), 0, 0, Real.sin (totalTurn g.ts gs / 2)⟩ ∧
          (cfRun c j1 j2 ms).gyroHeading = getFusedAzimuth (cfRun c j1 j2 ms) := by
    intro ms
    induction ms using List.reverseRecOn with
    | nil => intro _ _; exact ⟨rfl, rfl⟩
    | append_singleton ms m ih =>
      intro hty hz
      obtain ⟨ih0, ih⟩ := ih (fun x hx => hty x (List.mem_append_left _ hx))
        (fun x hx => hz x (List.mem_append_left _ hx))
      have hl := gyro_seen c j1 j2 ms (fun x hx h => (hz x (List.mem_append_left _ hx) h).2.2)
      obtain ⟨hna, hnm⟩ := hty m (by simp)
      have hzm := hz m (by simp)
      rw [run_snoc, List.filter_append]
      by_cases hm : m.data.type = SensorType.GYROSCOPE
      · obtain ⟨hx, hy, ht⟩ := hzm hm
        have hq := gyro_update c (cfRun c j1 j2 ms) m hm ih0
        have hi : (cfUpdate c (cfRun c j1 j2 ms) m).integralError = ⟨0, 0, 0⟩ := by
          unfold cfUpdate
          rw [hm]
          simp only [updateUsingGyroscope]
          split_ifs <;> exact ih0
        have hh : (cfUpdate c (cfRun c j1 j2 ms) m).gyroHeading = getFusedAzimuth (cfUpdate c (cfRun c j1 j2 ms) m) := by
          unfold cfUpdate
          rw [hm]
          rfl
        refine ⟨hi, ?_⟩
        have hone : [m].filter (fun m => m.data.type = SensorType.GYROSCOPE) = [m] := by simp [hm]
        rw [hone]
        have hv : ∀ k : ℝ, vscale k m.data.values = ⟨0, 0, m.data.values.z * k⟩ := by
          intro k
          simp [vscale, hx, hy]
        have hone' : Quat.one = ⟨Real.cos ((0 : ℝ) / 2), 0, 0, Real.sin ((0 : ℝ) / 2)⟩ := by simp [Quat.one]
        cases hf : ms.filter (fun m => m.data.type = SensorType.GYROSCOPE) with
        | nil =>
          rw [hf] at ih hl
          simp only [List.getLast?_nil, Option.map_none, Option.getD_none] at hl
          dsimp only at ih
          refine ⟨?_, hh⟩
          rw [hq, hl, if_pos rfl, hv, ih, hone', update_flat]
          simp [totalTurn]
        | cons g gs =>
          rw [hf] at ih hl
          dsimp only at ih
          refine ⟨?_, hh⟩
          have hne : (cfRun c j1 j2 ms).lastGyroTs ≠ -1 := by
            rw [hl]
            have hin : (g :: gs).getLast (by simp) ∈ ms.filter (fun m => m.data.type = SensorType.GYROSCOPE) := by
              rw [hf]; exact List.getLast_mem _
            rw [List.getLast?_eq_getLast_of_ne_nil (by simp)]
            rw [List.mem_filter] at hin
            exact (hz _ (List.mem_append_left _ hin.1) (by simpa using hin.2)).2.2
          rw [hq, if_neg hne, hv, ih.1, update_flat]
          have e : totalTurn g.ts (gs ++ [m]) = totalTurn g.ts gs +
              2 * Real.arctan (m.data.values.z * (((m.ts - (cfRun c j1 j2 ms).lastGyroTs : Int) : ℝ) / 1000) / 2) := by
            rw [totalTurn_append, hl]
            have : (Option.map Stamped.ts (g :: gs).getLast?).getD (-1) = (Option.map Stamped.ts gs.getLast?).getD g.ts := by
              cases gs with
              | nil => simp
              | cons y l =>
                rw [List.getLast?_cons_cons, List.getLast?_eq_getLast_of_ne_nil (by simp)]
                rfl
            rw [this]
            rfl
          rw [← e]
          rfl
      · have hone : [m].filter (fun m => m.data.type = SensorType.GYROSCOPE) = [] := by simp [hm]
        rw [hone, List.append_nil]
        have hq : (cfUpdate c (cfRun c j1 j2 ms) m).q = (cfRun c j1 j2 ms).q ∧
            (cfUpdate c (cfRun c j1 j2 ms) m).integralError = (cfRun c j1 j2 ms).integralError ∧
            (cfUpdate c (cfRun c j1 j2 ms) m).gyroHeading = (cfRun c j1 j2 ms).gyroHeading := by
          unfold cfUpdate
          cases h : m.data.type with
          | ACCELEROMETER => exact absurd h hna
          | MAGNETOMETER => exact absurd h hnm
          | GYROSCOPE => exact absurd h hm
          | BAROMETER => exact ⟨rfl, rfl, rfl⟩
          | LOCATION => exact ⟨rfl, rfl, rfl⟩
          | ORIENTATION => exact ⟨rfl, rfl, rfl⟩
        refine ⟨hq.2.1.trans ih0, ?_⟩
        cases hf : ms.filter (fun m => m.data.type = SensorType.GYROSCOPE) with
        | nil => rw [hf] at ih; exact hq.1.trans ih
        | cons g gs =>
          rw [hf] at ih
          refine ⟨hq.1.trans ih.1, ?_⟩
          rw [hq.2.2, ih.2]
          unfold getFusedAzimuth
          rw [hq.1]
  obtain ⟨-, hk⟩ := key ms hty hz
  rw [hg] at hk
  dsimp only at hk
  have h1 : SameAngle (getFusedAzimuth (cfRun c j1 j2 ms)) (-totalTurn g.ts gs) := by
    unfold getFusedAzimuth
    rw [hk.1]
    obtain ⟨k, hk⟩ := yaw_flat (totalTurn g.ts gs)
    refine ⟨-k, ?_⟩
    rw [hk]
    push_cast
    ring
  exact ⟨h1, hk.2 ▸ h1⟩

/-- **C90.** The angle of one sample has the sign of the rate, never exceeds the product of rate and
time, and falls short of it by at most a twelfth of its cube. -/
theorem C90_turn (ω : ℝ) (ms : Int) (h : 0 ≤ ω * (ms / 1000)) :
    0 ≤ turn ω ms ∧ turn ω ms ≤ ω * (ms / 1000) ∧ ω * (ms / 1000) - (ω * (ms / 1000)) ^ 3 / 12 ≤ turn ω ms := by
  unfold turn
  generalize ω * ((ms : ℝ) / 1000) = x at h
  have hx : 0 ≤ x / 2 := by linarith
  refine ⟨?_, ?_, ?_⟩
  · have := Real.arctan_nonneg.mpr hx
    linarith
  · have := Real.le_tan (Real.arctan_nonneg.mpr hx) (Real.arctan_lt_pi_div_two _)
    rw [Real.tan_arctan] at this
    linarith
  · have hmono : MonotoneOn (fun t : ℝ => Real.arctan t - t + t ^ 3 / 3) (Set.Ici 0) := by
      apply monotoneOn_of_deriv_nonneg (convex_Ici 0)
      · fun_prop
      · exact ((Real.differentiable_arctan.sub differentiable_id).add (by fun_prop)).differentiableOn
      · intro t _
        have hd : HasDerivAt (fun t : ℝ => Real.arctan t - t + t ^ 3 / 3) (1 / (1 + t ^ 2) - 1 + 3 * t ^ 2 / 3) t := by
          have h3 : HasDerivAt (fun t : ℝ => t ^ 3 / 3) (3 * t ^ 2 / 3) t := by
            have := (hasDerivAt_pow 3 t).div_const 3
            simpa using this
          exact ((Real.hasDerivAt_arctan t).sub (hasDerivAt_id t)).add h3
        rw [hd.deriv]
        have hp : (0 : ℝ) < 1 + t ^ 2 := by positivity
        have : 1 / (1 + t ^ 2) - 1 + 3 * t ^ 2 / 3 = t ^ 4 / (1 + t ^ 2) := by
          field_simp
          ring
        rw [this]
        positivity
    have := hmono (Set.mem_Ici.mpr (le_refl 0)) (Set.mem_Ici.mpr hx) hx
    simp only [Real.arctan_zero] at this
    linarith [show (x / 2) ^ 3 / 3 = x ^ 3 / 24 by ring]

/-- The gyroscope reports 1 rad/s about the vertical twice, one second apart. -/
example :
    let ms : List SensorMeasurement := [⟨⟨SensorType.GYROSCOPE, ⟨0, 0, 1⟩⟩, 1000⟩, ⟨⟨SensorType.GYROSCOPE, ⟨0, 0, 1⟩⟩, 2000⟩]
    SameAngle (cfRun ⟨0.1, 0.05, 0, 1⟩ (.LOCATION, 0) (.LOCATION, 0) ms).gyroHeading (-(2 * Real.arctan (1 / 2))) := by
  intro ms
  have h := (C90_flat ⟨0.1, 0.05, 0, 1⟩ (.LOCATION, 0) (.LOCATION, 0) ms (by simp [ms]) (by simp [ms])
    ⟨⟨SensorType.GYROSCOPE, ⟨0, 0, 1⟩⟩, 1000⟩ [⟨⟨SensorType.GYROSCOPE, ⟨0, 0, 1⟩⟩, 2000⟩] (by simp [ms])).2
  have e : totalTurn 1000 [⟨⟨SensorType.GYROSCOPE, ⟨0, 0, 1⟩⟩, 2000⟩] = 2 * Real.arctan (1 / 2) := by
    simp only [totalTurn, turn]
    norm_num
  rw [← e]
  exact h

/-! ## C91 -/

theorem magnitude_sq (v : Vector3d) : magnitude v ^ 2 = dot v v := by
  unfold magnitude dot
  rw [Real.sq_sqrt]
  have := mul_self_nonneg v.x
  have := mul_self_nonneg v.y
  have := mul_self_nonneg v.z
  linarith

theorem magnitude_nonneg (v : Vector3d) : 0 ≤ magnitude v := Real.sqrt_nonneg _

theorem normalized_direction (v : Vector3d) (h : EPSILON < magnitude v) : vnormalized v = direction v := by
  rw [vnormalized_eq]
  unfold direction
  rw [if_pos]
  rw [abs_of_nonneg (magnitude_nonneg v)]
  exact h

theorem direction_unit (v : Vector3d) (h : EPSILON < magnitude v) : dot (direction v) (direction v) = 1 := by
  have h0 : magnitude v ≠ 0 := (epsilon_pos.trans h).ne'
  have := magnitude_sq v
  unfold dot at this
  unfold dot direction
  field_simp
  rw [this]
  ring

theorem grav_eq (q : Quat) (h : q.normSq = 1) : gravSensorFrame q = toDevice q vertical := by
  rw [← sand_conj_unit q h]
  rfl

theorem up_unit (q : Quat) (h : q.normSq = 1) : dot (toDevice q vertical) (toDevice q vertical) = 1 := by
  rw [dot_toDevice q h]
  simp [dot, vertical]

theorem dot_comm (a b : Vector3d) : dot a b = dot b a := by unfold dot; ring

theorem alignment_world (q : Quat) (h : q.normSq = 1) (a : Vector3d) : alignment q a = dot (toWorld q a) vertical := by
  unfold alignment
  rw [← dot_toWorld q h, toWorld_toDevice q h]

/-- The scalar product squared is at most the product of the squares (unit vectors). -/
theorem cauchy (a b : Vector3d) (ha : dot a a = 1) (hb : dot b b = 1) :
    dot (cross a b) (cross a b) = 1 - dot a b ^ 2 := by
  have : dot (cross a b) (cross a b) = dot a a * dot b b - dot a b ^ 2 := by
    unfold dot cross
    ring
  rw [this, ha, hb, one_mul]

theorem alignment_range (q : Quat) (h : q.normSq = 1) (a : Vector3d) (ha : dot a a = 1) :
    -1 ≤ alignment q a ∧ alignment q a ≤ 1 := by
  have h1 := cauchy a (toDevice q vertical) ha (up_unit q h)
  have h2 := dot_self_nonneg (cross a (toDevice q vertical))
  have h3 : alignment q a ^ 2 ≤ 1 := by unfold alignment; linarith
  exact abs_le.mp (abs_le_one_iff_mul_self_le_one.mpr (by rw [← sq]; exact h3))

/-- The orientation after an accelerometer message. -/
theorem accel_update (c : CfConfig) (s : CfState) (h : s.q.normSq = 1) (m : SensorMeasurement)
    (hm : m.data.type = SensorType.ACCELEROMETER) (hv : EPSILON < magnitude m.data.values) :
    (cfUpdate c s m).q = updateQuaternion s.q
      (vscale c.ka (cross (direction m.data.values) (toDevice s.q vertical))) := by
  unfold cfUpdate
  rw [hm]
  simp only [updateUsingAccelerometer]
  rw [normalized_direction _ hv, grav_eq _ h]

theorem align_update (q : Quat) (h : q.normSq = 1) (a : Vector3d) (ha : dot a a = 1) (k : ℝ) :
    alignment (updateQuaternion q (vscale k (cross a (toDevice q vertical)))) a =
      ((1 - k ^ 2 * (1 - alignment q a ^ 2) / 4) * alignment q a + k * (1 - alignment q a ^ 2)) /
        (1 + k ^ 2 * (1 - alignment q a ^ 2) / 4) := by
  rw [alignment_world _ (update_unit _ _ h), toWorld_update q h]
  have hg := up_unit q h
  have hw : ∀ w, dot (toWorld q w) vertical = dot w (toDevice q vertical) := by
    intro w
    rw [← dot_toWorld q h w, toWorld_toDevice q h]
  rw [hw]
  unfold alignment
  generalize toDevice q vertical = g at *
  have hr : dot (vscale k (cross a g)) (vscale k (cross a g)) = k ^ 2 * (1 - dot a g ^ 2) := by
    rw [← cauchy a g ha hg]
    unfold dot vscale cross
    ring
  have hra : dot (vscale k (cross a g)) a = 0 := by
    unfold dot vscale cross
    ring
  rw [hr, hra]
  have hd : dot a g ^ 2 ≤ 1 := by
    have h1 := cauchy a g ha hg
    have h2 := dot_self_nonneg (cross a g)
    linarith
  have hp : 0 < 1 + k ^ 2 * (1 - dot a g ^ 2) / 4 := by
    have : 0 ≤ k ^ 2 * (1 - dot a g ^ 2) := mul_nonneg (sq_nonneg k) (by linarith)
    linarith
  generalize hN : 1 + k ^ 2 * (1 - dot a g ^ 2) / 4 = N at hp
  generalize hM : 1 - k ^ 2 * (1 - dot a g ^ 2) / 4 = M
  have e1 : dot (cross (cross a g) a) g = 1 - dot a g ^ 2 := by
    have : dot (cross (cross a g) a) g = dot a a * dot g g - dot a g ^ 2 := by unfold dot cross; ring
    rw [this, ha, hg, one_mul]
  rw [← e1]
  simp only [dot, vscale, cross]
  field_simp
  ring

/-- **C91.** What an accelerometer message does, exactly.  With `c` the cosine of the angle between the
measured direction and what the filter holds for the vertical, and `n` the axis perpendicular to both,
it turns the orientation about `n`, towards the measured direction, by `2 arctan (k sin / 2)`. -/
theorem C91_turn (c : CfConfig) (j1 j2 : SensorType × Int) (ms : List SensorMeasurement) (m : SensorMeasurement)
    (hm : m.data.type = SensorType.ACCELEROMETER) (hv : EPSILON < magnitude m.data.values)
    (n : Vector3d) (hn : dot n n = 1) (σ : ℝ)
    (hσ : cross (direction m.data.values) (toDevice (cfRun c j1 j2 ms).q vertical) = ⟨σ * n.x, σ * n.y, σ * n.z⟩)
    (v : Vector3d) :
    toWorld (cfRun c j1 j2 (ms ++ [m])).q v =
      toWorld (cfRun c j1 j2 ms).q (rotateAbout n (2 * Real.arctan (c.ka * σ / 2)) v) := by
  have hu := (cfInv_run c j1 j2 ms).unit
  rw [run_snoc, accel_update c _ hu m hm hv, hσ]
  apply update_rotates _ hu n hn <;> simp only [vscale] <;> ring

/-- **C91.** The effect on the tilt error: the cosine of the angle between the measured direction and
the vertical of the filter, before and after. -/
theorem C91_cosine (c : CfConfig) (j1 j2 : SensorType × Int) (ms : List SensorMeasurement) (m : SensorMeasurement)
    (hm : m.data.type = SensorType.ACCELEROMETER) (hv : EPSILON < magnitude m.data.values) (x : ℝ)
    (hx : alignment (cfRun c j1 j2 ms).q (direction m.data.values) = x) :
    -1 ≤ x ∧ x ≤ 1 ∧
    1 - alignment (cfRun c j1 j2 (ms ++ [m])).q (direction m.data.values) =
      (1 - x) * (1 - c.ka * (1 + x) / 2) ^ 2 / (1 + c.ka ^ 2 * (1 - x ^ 2) / 4) := by
  have hu := (cfInv_run c j1 j2 ms).unit
  have ha := direction_unit _ hv
  have hr := alignment_range _ hu _ ha
  rw [run_snoc, accel_update c _ hu m hm hv, align_update _ hu _ ha, hx]
  rw [hx] at hr
  refine ⟨hr.1, hr.2, ?_⟩
  have hp : 0 < 1 + c.ka ^ 2 * (1 - x ^ 2) / 4 := by
    have h1 : 0 ≤ 1 - x ^ 2 := by nlinarith [hr.1, hr.2]
    have : 0 ≤ c.ka ^ 2 * (1 - x ^ 2) := mul_nonneg (sq_nonneg _) h1
    linarith
  rw [eq_div_iff hp.ne', sub_mul, div_mul_cancel₀ _ hp.ne']
  ring

theorem closer (k x y : ℝ) (hk : 0 ≤ k) (hk1 : k ≤ 1) (h1 : -1 ≤ x) (h2 : x ≤ 1)
    (h : 1 - y = (1 - x) * (1 - k * (1 + x) / 2) ^ 2 / (1 + k ^ 2 * (1 - x ^ 2) / 4)) :
    1 - y ≤ (1 - x) * (1 - k * (1 + x) / 2) ^ 2 ∧ x ≤ y := by
  have hs : 0 ≤ k ^ 2 * (1 - x ^ 2) := mul_nonneg (sq_nonneg _) (by nlinarith)
  have hle : 1 - y ≤ (1 - x) * (1 - k * (1 + x) / 2) ^ 2 := by
    rw [h]
    exact div_le_self (mul_nonneg (by linarith) (sq_nonneg _)) (by linarith)
  refine ⟨hle, ?_⟩
  have hb0 : 0 ≤ 1 - k * (1 + x) / 2 := by nlinarith
  have hb1 : 1 - k * (1 + x) / 2 ≤ 1 := by
    have : 0 ≤ k * (1 + x) := mul_nonneg hk (by linarith)
    linarith
  have hsq : (1 - k * (1 + x) / 2) ^ 2 ≤ 1 := pow_le_one₀ hb0 hb1
  have : (1 - x) * (1 - k * (1 + x) / 2) ^ 2 ≤ (1 - x) * 1 := mul_le_mul_of_nonneg_left hsq (by linarith)
  linarith

/-- **C91.** For a gain between 0 and 1 no accelerometer message increases the tilt error, and a
sequence of messages of the same direction diminishes it geometrically, with a factor given by the
error at its start. -/
theorem C91_geometric (c : CfConfig) (hk : 0 ≤ c.ka) (hk1 : c.ka ≤ 1) (j1 j2 : SensorType × Int)
    (ms l : List SensorMeasurement) (a : Vector3d)
    (hl : ∀ m ∈ l, m.data.type = SensorType.ACCELEROMETER ∧ EPSILON < magnitude m.data.values ∧
      direction m.data.values = a) :
    alignment (cfRun c j1 j2 ms).q a ≤ alignment (cfRun c j1 j2 (ms ++ l)).q a ∧
    1 - alignment (cfRun c j1 j2 (ms ++ l)).q a ≤
      (1 - alignment (cfRun c j1 j2 ms).q a) *
        ((1 - c.ka * (1 + alignment (cfRun c j1 j2 ms).q a) / 2) ^ 2) ^ l.length := by
  induction l using List.reverseRecOn with
  | nil => simp
  | append_singleton l m ih =>
    obtain ⟨ih1, ih2⟩ := ih (fun x hx => hl x (List.mem_append_left _ hx))
    obtain ⟨hm, hv, hd⟩ := hl m (by simp)
    obtain ⟨r1, r2, r3⟩ := C91_cosine c j1 j2 (ms ++ l) m hm hv _ rfl
    rw [hd] at r1 r2 r3
    obtain ⟨s1, s2⟩ := closer c.ka _ _ hk hk1 r1 r2 r3
    rw [← List.append_assoc]
    refine ⟨ih1.trans s2, s1.trans ?_⟩
    have ha : dot a a = 1 := hd ▸ direction_unit _ hv
    have hr := alignment_range _ (cfInv_run c j1 j2 ms).unit a ha
    generalize alignment (cfRun c j1 j2 ms).q a = x at *
    generalize alignment (cfRun c j1 j2 (ms ++ l)).q a = y at *
    have hb0 : 0 ≤ 1 - c.ka * (1 + y) / 2 := by nlinarith
    have hb : 1 - c.ka * (1 + y) / 2 ≤ 1 - c.ka * (1 + x) / 2 := by
      have : c.ka * (1 + x) ≤ c.ka * (1 + y) := mul_le_mul_of_nonneg_left (by linarith) hk
      linarith
    have e2 : (1 - c.ka * (1 + y) / 2) ^ 2 ≤ (1 - c.ka * (1 + x) / 2) ^ 2 := pow_le_pow_left₀ hb0 hb 2
    rw [List.length_append, List.length_singleton, pow_succ ((1 - c.ka * (1 + x) / 2) ^ 2), ← mul_assoc]
    exact mul_le_mul ih2 e2 (sq_nonneg _) (mul_nonneg (by linarith [hr.2]) (by positivity))

/-- **C91.** In a filter created from settings the gain is 0.1, whatever the settings: the tilt error after `n` messages of the same
direction is at most the error before times `(1 - (1 + x) / 20)²ⁿ`, with `x` its cosine before. The integral gain is 0, as
`C90_step` asks. -/
theorem C91_rate (cs : CommonSettings) (j1 j2 : SensorType × Int)
    (ms l : List SensorMeasurement) (a : Vector3d)
    (hl : ∀ m ∈ l, m.data.type = SensorType.ACCELEROMETER ∧ EPSILON < magnitude m.data.values ∧
      direction m.data.values = a) :
    let c := (fusionConfig cs).cf
    1 - alignment (cfRun c j1 j2 (ms ++ l)).q a ≤
      (1 - alignment (cfRun c j1 j2 ms).q a) * (1 - (1 + alignment (cfRun c j1 j2 ms).q a) / 20) ^ (2 * l.length) ∧
    c.ki ≤ CF_DOUBLE_EPSILON := by
  intro c
  have h := (C91_geometric c (by norm_num [c, fusionConfig]) (by norm_num [c, fusionConfig]) j1 j2 ms l a hl).2
  rw [← pow_mul] at h
  have e : ∀ x : ℝ, 1 - c.ka * (1 + x) / 2 = 1 - (1 + x) / 20 := by
    intro x; simp only [c, fusionConfig]; ring
  rw [e] at h
  exact ⟨h, by norm_num [c, fusionConfig, CF_DOUBLE_EPSILON]⟩

/-- **C91.** So a device at rest finds its vertical, to any accuracy, unless the filter holds it
exactly upside down: enough messages of the same direction bring the cosine within `ε` of 1. -/
theorem C91_converges (c : CfConfig) (hk : 0 < c.ka) (hk1 : c.ka ≤ 1) (j1 j2 : SensorType × Int)
    (ms : List SensorMeasurement) (a : Vector3d) (hne : -1 < alignment (cfRun c j1 j2 ms).q a) (ε : ℝ) (hε : 0 < ε) :
    ∃ N : ℕ, ∀ l : List SensorMeasurement, N ≤ l.length →
      (∀ m ∈ l, m.data.type = SensorType.ACCELEROMETER ∧ EPSILON < magnitude m.data.values ∧
        direction m.data.values = a) →
      1 - ε < alignment (cfRun c j1 j2 (ms ++ l)).q a := by
  generalize hx : alignment (cfRun c j1 j2 ms).q a = x at hne
  by_cases hlt : x ≤ 1
  · have hb0 : 0 ≤ 1 - c.ka * (1 + x) / 2 := by nlinarith
    have hb1 : 1 - c.ka * (1 + x) / 2 < 1 := by
      have : 0 < c.ka * (1 + x) := mul_pos hk (by linarith)
      linarith
    have hsq : (1 - c.ka * (1 + x) / 2) ^ 2 < 1 := pow_lt_one₀ hb0 hb1 two_ne_zero
    obtain ⟨N, hN⟩ := exists_pow_lt_of_lt_one (show 0 < ε / 3 by linarith) hsq
    refine ⟨N + 1, fun l hlen hl => ?_⟩
    have h := (C91_geometric c hk.le hk1 j1 j2 ms l a hl).2
    rw [hx] at h
    have hp : ((1 - c.ka * (1 + x) / 2) ^ 2) ^ l.length ≤ ((1 - c.ka * (1 + x) / 2) ^ 2) ^ N :=
      pow_le_pow_of_le_one (sq_nonneg _) hsq.le (by omega)
    have hp0 : 0 ≤ ((1 - c.ka * (1 + x) / 2) ^ 2) ^ l.length := by positivity
    have hm : (1 - x) * ((1 - c.ka * (1 + x) / 2) ^ 2) ^ l.length ≤ 2 * (ε / 3) := by
      apply mul_le_mul (by linarith) (by linarith) hp0 (by norm_num)
    linarith
  · refine ⟨0, fun l _ hl => ?_⟩
    have h := (C91_geometric c hk.le hk1 j1 j2 ms l a hl).1
    rw [hx] at h
    linarith

/-- **C91.** Upside down exactly, the filter stays as it is, for any gain: the cross product is zero. -/
theorem C91_stuck (c : CfConfig) (j1 j2 : SensorType × Int) (ms : List SensorMeasurement) (m : SensorMeasurement)
    (hm : m.data.type = SensorType.ACCELEROMETER) (hv : EPSILON < magnitude m.data.values)
    (h : alignment (cfRun c j1 j2 ms).q (direction m.data.values) = -1) :
    alignment (cfRun c j1 j2 (ms ++ [m])).q (direction m.data.values) = -1 := by
  obtain ⟨-, -, e⟩ := C91_cosine c j1 j2 ms m hm hv _ h
  norm_num at e
  linarith

/-- A new filter, held face down from the start: the tilt error of 180 degrees is never corrected. -/
example (l : List SensorMeasurement)
    (hl : ∀ m ∈ l, m = (⟨⟨SensorType.ACCELEROMETER, ⟨0, 0, -9.8⟩⟩, m.ts⟩ : SensorMeasurement)) :
    alignment (cfRun ⟨0.1, 0.05, 0, 1⟩ (.LOCATION, 0) (.LOCATION, 0) l).q ⟨0, 0, -1⟩ = -1 := by
  have hmag : magnitude ⟨0, 0, -9.8⟩ = 9.8 := by
    unfold magnitude
    rw [show (0 : ℝ) * 0 + 0 * 0 + (-9.8) * (-9.8) = 9.8 ^ 2 by norm_num]
    exact Real.sqrt_sq (by norm_num)
  have hdir : direction ⟨0, 0, -9.8⟩ = ⟨0, 0, -1⟩ := by
    unfold direction
    rw [hmag]
    apply vec_ext <;> norm_num
  induction l using List.reverseRecOn with
  | nil => simp [cfRun, cfInit, Quat.one, alignment, dot, toDevice, vertical]
  | append_singleton l m ih =>
    have ih := ih (fun x hx => hl x (List.mem_append_left _ hx))
    have e := hl m (by simp)
    have hd : m.data.values = ⟨0, 0, -9.8⟩ := by rw [e]
    have := C91_stuck ⟨0.1, 0.05, 0, 1⟩ (.LOCATION, 0) (.LOCATION, 0) l m (by rw [e])
      (by rw [hd, hmag]; linarith [epsilon_lt_one]) (by rw [hd, hdir]; exact ih)
    rw [hd, hdir] at this
    exact this

end Verif.Fusion
