import Verif.Fp.RestLemmas
import Verif.Standalone.CfProgProps

/-! # C112: the tilt of a device at rest, in floating point -/

namespace Verif.Fp

open Verif Verif.Pedo Verif.Fusion

/-! ## Specification -/

/-- The error of the tilt: the angle between the true upward direction `up`, in the frame of the device, and what the filter
holds for it. -/
noncomputable def tiltErrorF (s : FState) (up : Vector3d) : ℝ := angleBetween up (toDevice s.q.normalized vertical)

variable (R : Rounding)

theorem fRun_snoc (c : CfConfig) (ms : List SensorMeasurement) (m : SensorMeasurement) :
    fRun R c (ms ++ [m]) = fUpdate R c (fRun R c ms) m := by
  unfold fRun; rw [List.foldl_append]; rfl

theorem half_run (c : CfConfig) (ms : List SensorMeasurement) : 1 / 2 ≤ ‖toH (fRun R c ms).q‖ := by
  have := (abs_le.mp (norm_run R c ms)).1
  have := u_small
  linarith

theorem unit_runF (c : CfConfig) (ms : List SensorMeasurement) : (fRun R c ms).q.normalized.normSq = 1 :=
  normalized_unit _ (half_run R c ms)

/-- The time of the last gyroscope message is kept the same way. -/
theorem lastGyroTs_eq (c : CfConfig) (j1 j2 : SensorType × Int) (ms : List SensorMeasurement) :
    (fRun R c ms).lastGyroTs = (cfRun c j1 j2 ms).lastGyroTs := by
  induction ms using List.reverseRecOn with
  | nil => rfl
  | append_singleton ms m ih =>
    rw [fRun_snoc, run_snoc]
    generalize fRun R c ms = s at *
    generalize cfRun c j1 j2 ms = s' at *
    unfold fUpdate cfUpdate
    cases ht : m.data.type
    case MAGNETOMETER =>
      dsimp only
      have h1 : (magnF R c s m).lastGyroTs = s.lastGyroTs := by
        unfold magnF
        dsimp only
        split_ifs <;> rfl
      have h2 : ∀ t : CfState, (updateUsingMagnetometer c t m).lastGyroTs = t.lastGyroTs := by
        intro t
        unfold updateUsingMagnetometer
        dsimp only
        split_ifs <;> rfl
      by_cases h : s'.lastGyroTs = -1
      · rw [if_pos (ih.trans h), if_pos h, h1, h2]; exact ih
      · rw [if_neg (fun h' => h (ih.symm.trans h')), if_neg h]; exact ih
    all_goals first | rfl | exact ih

theorem integralF_zero (c : CfConfig) (hki : c.ki ≤ CF_DOUBLE_EPSILON) (e : Vector3d) : integralF R c ⟨0, 0, 0⟩ e = ⟨0, 0, 0⟩ := by
  unfold integralF
  rw [if_neg (not_lt.mpr hki)]
  unfold vaddF
  simp [R.zero]

theorem integral_run (c : CfConfig) (hki : c.ki ≤ CF_DOUBLE_EPSILON) (ms : List SensorMeasurement) :
    (fRun R c ms).integralError = ⟨0, 0, 0⟩ := by
  induction ms using List.reverseRecOn with
  | nil => rfl
  | append_singleton ms m ih =>
    rw [fRun_snoc]
    generalize fRun R c ms = s at *
    unfold fUpdate
    cases ht : m.data.type
    case ACCELEROMETER =>
      dsimp only
      unfold accelF
      dsimp only
      rw [ih]
      exact integralF_zero R c hki _
    case GYROSCOPE =>
      dsimp only
      split_ifs <;> exact ih
    case MAGNETOMETER =>
      dsimp only
      split_ifs
      · unfold magnF
        dsimp only
        split_ifs
        · exact ih
        · dsimp only
          rw [ih]
          exact integralF_zero R c hki _
      · exact ih
    all_goals exact ih

/-! ## One message -/

/-- **C112.** One accelerometer message: what it does to the tilt error, up to `300 · 2⁻⁵³`, is what exact arithmetic does
(`C110_accel`). -/
theorem C112_accel (c : CfConfig) (hk : 0 ≤ c.ka) (hk1 : c.ka ≤ 1) (ms : List SensorMeasurement) (m : SensorMeasurement)
    (hm : m.data.type = SensorType.ACCELEROMETER) (hv : 2 * EPSILON ≤ magnitude m.data.values) (up : Vector3d) (hu : dot up up = 1)
    (δ : ℝ) (hδ : angleBetween up (direction m.data.values) ≤ δ) :
    ∃ θ, 0 ≤ θ ∧ θ ≤ tiltErrorF (fRun R c ms) up + δ ∧
      tiltErrorF (fRun R c (ms ++ [m])) up ≤ θ - 2 * Real.arctan (c.ka * Real.sin θ / 2) + δ + 300 * u := by
  have hE := epsilon_pos
  have hq := unit_runF R c ms
  have ha := direction_unit m.data.values (by linarith)
  have hup := up_unit _ hq
  have hq' := unit_runF R c (ms ++ [m])
  have hup' := up_unit _ hq'
  have hnorm := norm_run R c ms
  have e := accel_angle _ hq _ ha c.ka hk hk1
  dsimp only at e
  have hr := rot_err R _ hnorm c.ka hk hk1 m.data.values hv
  have hs := step_near R _ hnorm _ _ _ (turn_abs _ _ _ hr)
  have hex := update_unit (fRun R c ms).q.normalized
    (vscale c.ka (cross (direction m.data.values) (toDevice (fRun R c ms).q.normalized vertical))) hq
  have hq2 : (fRun R c (ms ++ [m])).q = updateF R (fRun R c ms).q
      (vscaleF R c.ka (crossF R (vnormalizedF R m.data.values) (gravF R (fRun R c ms).q))) := by
    rw [fRun_snoc]
    unfold fUpdate
    rw [hm]
    rfl
  rw [← hq2] at hs
  have hn := up_near _ _ hex hq'
  rw [norm_sub_rev] at hn
  refine ⟨angleBetween (direction m.data.values) (toDevice (fRun R c ms).q.normalized vertical), angle_nonneg _ _, ?_, ?_⟩
  · have := angle_tri _ up _ ha hu hup
    rw [angle_symm _ up] at this
    unfold tiltErrorF
    linarith
  · have t1 := angle_tri up _ _ hu ha hup'
    have t2 := angle_tri (direction m.data.values) _ _ ha (up_unit _ hex) hup'
    unfold tiltErrorF
    have hu0 := u_pos
    linarith

/-- **C112.** One accelerometer message, as in `C110_pull`: up to `300 · 2⁻⁵³` the new error of the tilt is at most the mean of the old
one and the error of the measured direction. -/
theorem C112_pull (c : CfConfig) (hk : 0 ≤ c.ka) (hk1 : c.ka ≤ 1) (ms : List SensorMeasurement) (m : SensorMeasurement)
    (hm : m.data.type = SensorType.ACCELEROMETER) (hv : 2 * EPSILON ≤ magnitude m.data.values) (up : Vector3d) (hu : dot up up = 1)
    (he : tiltErrorF (fRun R c ms) up ≤ Real.pi / 2) (hd : angleBetween up (direction m.data.values) ≤ Real.pi / 2)
    (s : ℝ) (hs0 : 0 ≤ s) (hs1 : s ≤ 1)
    (hs : s * tiltErrorF (fRun R c ms) (direction m.data.values) =
      2 * Real.arctan (c.ka * Real.sin (tiltErrorF (fRun R c ms) (direction m.data.values)) / 2)) :
    tiltErrorF (fRun R c (ms ++ [m])) up ≤
      (1 - s) * tiltErrorF (fRun R c ms) up + s * angleBetween up (direction m.data.values) + 300 * u := by
  have hE := epsilon_pos
  have hq := unit_runF R c ms
  have ha := direction_unit m.data.values (by linarith)
  have hq' := unit_runF R c (ms ++ [m])
  have hup' := up_unit _ hq'
  have hnorm := norm_run R c ms
  have e := accel_tilt _ hq _ ha c.ka hk hk1 up hu he hd s hs0 hs1 hs
  have hr := rot_err R _ hnorm c.ka hk hk1 m.data.values hv
  have hst := step_near R _ hnorm _ _ _ (turn_abs _ _ _ hr)
  have hex := update_unit (fRun R c ms).q.normalized
    (vscale c.ka (cross (direction m.data.values) (toDevice (fRun R c ms).q.normalized vertical))) hq
  have hq2 : (fRun R c (ms ++ [m])).q = updateF R (fRun R c ms).q
      (vscaleF R c.ka (crossF R (vnormalizedF R m.data.values) (gravF R (fRun R c ms).q))) := by
    rw [fRun_snoc]
    unfold fUpdate
    rw [hm]
    rfl
  rw [← hq2] at hst
  have hn := up_near _ _ hex hq'
  rw [norm_sub_rev] at hn
  have t2 := angle_tri up _ _ hu (up_unit _ hex) hup'
  have hu0 := u_pos
  unfold tiltErrorF at *
  linarith

/-- **C112.** One gyroscope message of a device at rest: the tilt error grows by at most the reported rotation and
`200 · 2⁻⁵³`. -/
theorem C112_gyro (c : CfConfig) (hki : c.ki ≤ CF_DOUBLE_EPSILON) (ms : List SensorMeasurement)
    (hts : ∀ m ∈ ms, m.data.type = SensorType.GYROSCOPE → m.ts ≠ -1) (m : SensorMeasurement)
    (hm : m.data.type = SensorType.GYROSCOPE) (up : Vector3d) (hu : dot up up = 1) :
    tiltErrorF (fRun R c (ms ++ [m])) up ≤ tiltErrorF (fRun R c ms) up +
      magnitude m.data.values * (|((m.ts - (lastGyro ms).getD m.ts : Int) : ℝ)| / 1000) + 200 * u := by
  have hu0 := u_pos
  have hq := unit_runF R c ms
  have hup := up_unit _ hq
  have hq' := unit_runF R c (ms ++ [m])
  have hup' := up_unit _ hq'
  have hnorm := norm_run R c ms
  have hl := gyro_seen c (SensorType.GYROSCOPE, 0) (SensorType.GYROSCOPE, 0) ms hts
  rw [← lastGyroTs_eq R] at hl
  have hold : (if (fRun R c ms).lastGyroTs = -1 then m.ts else (fRun R c ms).lastGyroTs) = (lastGyro ms).getD m.ts := by
    rw [hl]
    unfold lastGyro
    cases hg : (ms.filter (fun m => m.data.type = SensorType.GYROSCOPE)).getLast? with
    | none => simp
    | some g =>
      have hgm : g ∈ ms ∧ g.data.type = SensorType.GYROSCOPE := by
        have := List.mem_of_getLast? hg
        simpa using this
      simp only [Option.map_some, Option.getD_some]
      rw [if_neg (hts g hgm.1 hgm.2)]
  have hint := integral_run R c hki ms
  -- the computed rotation vector
  have hq2 : (fRun R c (ms ++ [m])).q = updateF R (fRun R c ms).q
      (vaddF R (vscaleF R (dtF R m.ts ((lastGyro ms).getD m.ts)) m.data.values)
        (vscaleF R (dtF R m.ts ((lastGyro ms).getD m.ts)) ⟨0, 0, 0⟩)) := by
    rw [fRun_snoc, ← hold, ← hint]
    generalize fRun R c ms = s
    unfold fUpdate
    rw [hm]
    dsimp only
    split_ifs <;> rfl
  have hdt := dt_err R m.ts ((lastGyro ms).getD m.ts)
  generalize hd : m.ts - (lastGyro ms).getD m.ts = d at *
  generalize dtF R m.ts ((lastGyro ms).getD m.ts) = dt' at *
  have hdt' : |dt' - (d : ℝ) / 1000| ≤ 2.2 * u * |(d : ℝ) / 1000| := by
    have : (1000.0 : ℝ) = 1000 := by norm_num
    rw [← this]; exact hdt
  have hv := turn_err (vadd (vscale ((d : ℝ) / 1000) m.data.values) (vscale ((d : ℝ) / 1000) ⟨0, 0, 0⟩))
    (vaddF R (vscaleF R dt' m.data.values) (vscaleF R dt' ⟨0, 0, 0⟩)) 4.3 (by norm_num)
    (by have := omega_err R m.data.values.x ((d : ℝ) / 1000) dt' hdt'
        simpa [vadd, vscale, vaddF, vscaleF] using this)
    (by have := omega_err R m.data.values.y ((d : ℝ) / 1000) dt' hdt'
        simpa [vadd, vscale, vaddF, vscaleF] using this)
    (by have := omega_err R m.data.values.z ((d : ℝ) / 1000) dt' hdt'
        simpa [vadd, vscale, vaddF, vscaleF] using this)
  have hs := step_near R _ hnorm _ _ _ hv
  rw [← hq2] at hs
  have hex := update_unit (fRun R c ms).q.normalized
    (vadd (vscale ((d : ℝ) / 1000) m.data.values) (vscale ((d : ℝ) / 1000) ⟨0, 0, 0⟩)) hq
  have hn := up_near _ _ hex hq'
  rw [norm_sub_rev] at hn
  -- the exact rotation
  obtain ⟨n, hn1, hω⟩ := exists_axis m.data.values
  have hrot : toWorld (updateQuaternion (fRun R c ms).q.normalized
      (vadd (vscale ((d : ℝ) / 1000) m.data.values) (vscale ((d : ℝ) / 1000) ⟨0, 0, 0⟩))) up =
      toWorld (fRun R c ms).q.normalized (rotateAbout n (Fusion.turn (magnitude m.data.values) d) up) := by
    unfold Fusion.turn
    generalize hM : magnitude m.data.values = M at hω ⊢
    apply update_rotates _ hq n hn1
    all_goals
      rw [hω]
      simp only [vscale, vadd]
      ring
  have hang : angleBetween up (toDevice (updateQuaternion (fRun R c ms).q.normalized
      (vadd (vscale ((d : ℝ) / 1000) m.data.values) (vscale ((d : ℝ) / 1000) ⟨0, 0, 0⟩))) vertical) ≤
      tiltErrorF (fRun R c ms) up + magnitude m.data.values * (|(d : ℝ)| / 1000) := by
    rw [tilt_cos, alignment_world _ hex, hrot, ← alignment_world _ hq, ← tilt_cos]
    have t := angle_tri (rotateAbout n (Fusion.turn (magnitude m.data.values) d) up) up _
      (rotate_angle n hn1 _ up hu).2 hu hup
    have h2 := (rotate_angle n hn1 (Fusion.turn (magnitude m.data.values) d) up hu).1
    have h3 : |Fusion.turn (magnitude m.data.values) d| ≤ magnitude m.data.values * (|(d : ℝ)| / 1000) := by
      unfold Fusion.turn
      have hmag := magnitude_nonneg m.data.values
      generalize magnitude m.data.values = r at *
      have e : |2 * Real.arctan (r * ((d : ℝ) / 1000) / 2)| = 2 * Real.arctan (r * (|(d : ℝ)| / 1000) / 2) := by
        rcases le_total 0 (d : ℝ) with hd | hd
        · rw [abs_of_nonneg hd]
          exact abs_of_nonneg (two_arctan _ (by positivity)).1
        · rw [abs_of_nonpos hd]
          have : r * (d / 1000) / 2 = -(r * (-(d : ℝ) / 1000) / 2) := by ring
          rw [this, Real.arctan_neg, mul_neg, abs_neg]
          refine abs_of_nonneg (two_arctan _ ?_).1
          have : 0 ≤ -(d : ℝ) := by linarith
          positivity
      rw [e]
      exact (two_arctan _ (by positivity)).2.1
    unfold tiltErrorF
    linarith
  have t := angle_tri up _ _ hu (up_unit _ hex) hup'
  unfold tiltErrorF at *
  linarith

/-! ## Rounds -/

theorem gyroCount_cons (m : SensorMeasurement) (l : List SensorMeasurement) :
    gyroCount (m :: l) = (if m.data.type = SensorType.GYROSCOPE then 1 else 0) + gyroCount l := by
  unfold gyroCount
  by_cases h : m.data.type = SensorType.GYROSCOPE
  · simp [h]; ring
  · simp [h]

/-- The messages between two accelerometer messages. -/
theorem othersF (c : CfConfig) (hki : c.ki ≤ CF_DOUBLE_EPSILON) (up : Vector3d) (hu : dot up up = 1)
    (l ms : List SensorMeasurement) (hts : ∀ m ∈ ms ++ l, m.data.type = SensorType.GYROSCOPE → m.ts ≠ -1)
    (hacc : ∀ m ∈ l, m.data.type ≠ SensorType.ACCELEROMETER)
    (hmagn : ∀ p m r, l = p ++ m :: r → m.data.type = SensorType.MAGNETOMETER →
      ∃ g ∈ ms ++ p, g.data.type = SensorType.GYROSCOPE) :
    tiltErrorF (fRun R c (ms ++ l)) up ≤ tiltErrorF (fRun R c ms) up + reported (lastGyro ms) l + gyroCount l * (200 * u) := by
  induction l generalizing ms with
  | nil => simp [reported, gyroCount]
  | cons m l ih =>
    have h1 := ih (ms ++ [m]) (by simpa using hts) (fun x hx => hacc x (by simp [hx]))
      (fun p x r e hx => by
        obtain ⟨g, hg, hg'⟩ := hmagn (m :: p) x r (by rw [e]; rfl) hx
        exact ⟨g, by simpa using hg, hg'⟩)
    rw [List.append_assoc, List.singleton_append, lastGyro_snoc] at h1
    rw [gyroCount_cons]
    by_cases hg : m.data.type = SensorType.GYROSCOPE
    · rw [if_pos hg] at h1 ⊢
      have h2 := C112_gyro R c hki ms (fun x hx => hts x (by simp [hx])) m hg up hu
      rw [reported, if_pos hg]
      rw [Nat.cast_add, Nat.cast_one]
      linarith
    · rw [if_neg hg] at h1 ⊢
      rw [reported, if_neg hg, zero_add]
      have hq : (fRun R c (ms ++ [m])).q = (fRun R c ms).q := by
        rw [fRun_snoc]
        by_cases hm : m.data.type = SensorType.MAGNETOMETER
        · obtain ⟨g, hgin, hgt⟩ := hmagn [] m l rfl hm
          rw [List.append_nil] at hgin
          have hl : (fRun R c ms).lastGyroTs ≠ -1 := by
            rw [lastGyroTs_eq R c (SensorType.GYROSCOPE, 0) (SensorType.GYROSCOPE, 0), gyro_seen c _ _ ms (fun x hx => hts x (by simp [hx]))]
            have hne : ms.filter (fun m => m.data.type = SensorType.GYROSCOPE) ≠ [] := by
              apply List.ne_nil_of_mem (a := g)
              rw [List.mem_filter]
              exact ⟨hgin, by simpa using hgt⟩
            rw [List.getLast?_eq_getLast_of_ne_nil hne]
            have hin := List.getLast_mem hne
            rw [List.mem_filter] at hin
            exact hts _ (List.mem_append_left _ hin.1) (by simpa using hin.2)
          unfold fUpdate
          rw [hm]
          dsimp only
          rw [if_neg hl]
        · unfold fUpdate
          cases h : m.data.type with
          | ACCELEROMETER => exact absurd h (hacc m (by simp))
          | MAGNETOMETER => exact absurd h hm
          | GYROSCOPE => exact absurd h hg
          | BAROMETER => rfl
          | LOCATION => rfl
          | ORIENTATION => rfl
      have e : tiltErrorF (fRun R c (ms ++ [m])) up = tiltErrorF (fRun R c ms) up := by
        unfold tiltErrorF
        rw [hq]
      linarith

/-- The rounds, with any contraction; `ρ` is the rounding error of one round. -/
theorem rest_roundsF (c : CfConfig) (hk : 0 ≤ c.ka) (hk1 : c.ka ≤ 1) (hki : c.ki ≤ CF_DOUBLE_EPSILON)
    (up : Vector3d) (hu : dot up up = 1) (δ ε κ Θ ρ : ℝ) (N : ℕ) (hδ : 0 ≤ δ) (hε : 0 ≤ ε) (hκ : 0 < κ) (hκ1 : κ ≤ 1)
    (hρ : ρ = (300 + 200 * N) * u) (hΘπ : Θ ≤ Real.pi / 2)
    (hφ : ∀ θ, 0 ≤ θ → θ ≤ Θ → θ - 2 * Real.arctan (c.ka * Real.sin θ / 2) ≤ (1 - κ) * θ)
    (hΘ : 2 * δ + (ε + ρ) / κ ≤ Θ) (ms : List SensorMeasurement)
    (h0 : tiltErrorF (fRun R c ms) up + δ ≤ Θ) (rounds : List (SensorMeasurement × List SensorMeasurement))
    (h : RestRounds up δ ε ms rounds) (hN : ∀ r ∈ rounds, 2 * EPSILON ≤ magnitude r.1.data.values ∧ gyroCount r.2 ≤ N) :
    tiltErrorF (fRun R c (ms ++ messages rounds)) up + δ ≤ Θ ∧
    tiltErrorF (fRun R c (ms ++ messages rounds)) up ≤
      (1 - κ) ^ rounds.length * tiltErrorF (fRun R c ms) up + (δ + (ε + ρ) / κ) := by
  have hu0 := u_pos
  have hρ0 : 0 ≤ ρ := by rw [hρ]; positivity
  have hb0 : 0 ≤ (ε + ρ) / κ := div_nonneg (by linarith) hκ.le
  induction rounds using List.reverseRecOn with
  | nil =>
    simp only [messages, List.flatMap_nil, List.append_nil, List.length_nil, pow_zero, one_mul]
    exact ⟨h0, by linarith⟩
  | append_singleton rounds r ih =>
    obtain ⟨i1, i2⟩ := ih (rest_prefix h) (fun x hx => hN x (by simp [hx]))
    obtain ⟨a1, a2, a3⟩ := h.accel r (by simp)
    obtain ⟨n1, n2⟩ := hN r (by simp)
    have ha := direction_unit _ a2
    have hup := up_unit _ (unit_runF R c (ms ++ messages rounds))
    have hθ : tiltErrorF (fRun R c (ms ++ messages rounds)) (direction r.1.data.values) ≤ Θ := by
      have := angle_tri _ up _ ha hu hup
      rw [angle_symm _ up] at this
      unfold tiltErrorF at *
      linarith
    have hθ0 : 0 ≤ tiltErrorF (fRun R c (ms ++ messages rounds)) (direction r.1.data.values) := angle_nonneg _ _
    have hx0 : 0 ≤ tiltErrorF (fRun R c (ms ++ messages rounds)) up := angle_nonneg _ _
    obtain ⟨s, s1, s2, s3⟩ := exists_part c.ka κ _ hk hk1 hθ0 (angle_le_pi _ _) hκ.le hκ1 (hφ _ hθ0 hθ)
    have hpull := C112_pull R c hk hk1 (ms ++ messages rounds) r.1 a1 n1 up hu (by linarith) (by linarith) s (by linarith) s2 s3
    have o := othersF R c hki up hu r.2 (ms ++ messages rounds ++ [r.1])
      (fun m hm => h.stamps m (by rw [messages_snoc]; simpa using hm))
      (h.other r (by simp))
      (fun p m q e hm => by
        obtain ⟨g, hg, hg'⟩ := h.magn (messages rounds ++ [r.1] ++ p) m q (by rw [messages_snoc, e]; simp) hm
        exact ⟨g, by simpa using hg, hg'⟩)
    have hg := h.gyro rounds r [] rfl
    have hlg : lastGyro (ms ++ messages rounds ++ [r.1]) = lastGyro (ms ++ messages rounds) := by
      rw [lastGyro_snoc, if_neg]
      rw [a1]
      decide
    rw [hlg] at o
    have e : ms ++ messages (rounds ++ [r]) = ms ++ messages rounds ++ [r.1] ++ r.2 := by
      rw [messages_snoc]; simp
    have hc : (gyroCount r.2 : ℝ) * (200 * u) ≤ N * (200 * u) :=
      mul_le_mul_of_nonneg_right (by exact_mod_cast n2) (by positivity)
    rw [e, List.length_append, List.length_singleton, pow_succ, mul_comm _ (1 - κ), mul_assoc]
    exact round_bound (y := tiltErrorF (fRun R c (ms ++ messages rounds ++ [r.1])) up - 300 * u) hκ hκ1
      (add_nonneg hε hρ0) hΘ (mul_nonneg (pow_nonneg (by linarith) _) (angle_nonneg _ _)) s1 s2 a3 i1 i2
      (by linarith) (by rw [hρ]; linarith)

/-- **C112.** The bound of C110 in floating point: each round (an accelerometer message and at most `N` gyroscope messages) brings
the tilt error down by the factor `1 - k/2`, and rounding adds `(300 + 200 N) · 2⁻⁵³` to the gyroscope errors of a round. -/
theorem C112_rest (c : CfConfig) (hk : 0 < c.ka) (hk1 : c.ka ≤ 1) (hki : c.ki ≤ CF_DOUBLE_EPSILON)
    (up : Vector3d) (hu : dot up up = 1) (δ ε : ℝ) (N : ℕ) (hδ : 0 ≤ δ) (hε : 0 ≤ ε)
    (hsmall : 2 * δ + 2 * (ε + (300 + 200 * N) * u) / c.ka ≤ Real.pi / 2)
    (ms : List SensorMeasurement) (h0 : tiltErrorF (fRun R c ms) up + δ ≤ Real.pi / 2)
    (rounds : List (SensorMeasurement × List SensorMeasurement)) (h : RestRounds up δ ε ms rounds)
    (hN : ∀ r ∈ rounds, 2 * EPSILON ≤ magnitude r.1.data.values ∧ gyroCount r.2 ≤ N) :
    tiltErrorF (fRun R c (ms ++ messages rounds)) up ≤
      (1 - c.ka / 2) ^ rounds.length * tiltErrorF (fRun R c ms) up + (δ + 2 * (ε + (300 + 200 * N) * u) / c.ka) := by
  have e : (ε + (300 + 200 * N) * u) / (c.ka / 2) = 2 * (ε + (300 + 200 * N) * u) / c.ka := by field_simp
  rw [← e] at hsmall ⊢
  exact (rest_roundsF R c hk.le hk1 hki up hu δ ε (c.ka / 2) (Real.pi / 2) _ N hδ hε (by linarith) (by linarith) rfl (le_refl _)
    (contract_wide c.ka hk.le hk1) hsmall ms h0 rounds h hN).2

/-- **C112.** The same within half a radian. -/
theorem C112_small (c : CfConfig) (hk : 0 < c.ka) (hk1 : c.ka ≤ 1) (hki : c.ki ≤ CF_DOUBLE_EPSILON)
    (up : Vector3d) (hu : dot up up = 1) (δ ε : ℝ) (N : ℕ) (hδ : 0 ≤ δ) (hε : 0 ≤ ε)
    (hsmall : 2 * δ + 6 * (ε + (300 + 200 * N) * u) / (5 * c.ka) ≤ 1 / 2)
    (ms : List SensorMeasurement) (h0 : tiltErrorF (fRun R c ms) up + δ ≤ 1 / 2)
    (rounds : List (SensorMeasurement × List SensorMeasurement)) (h : RestRounds up δ ε ms rounds)
    (hN : ∀ r ∈ rounds, 2 * EPSILON ≤ magnitude r.1.data.values ∧ gyroCount r.2 ≤ N) :
    tiltErrorF (fRun R c (ms ++ messages rounds)) up ≤
      (1 - 5 * c.ka / 6) ^ rounds.length * tiltErrorF (fRun R c ms) up + (δ + 6 * (ε + (300 + 200 * N) * u) / (5 * c.ka)) := by
  have e : (ε + (300 + 200 * N) * u) / (5 * c.ka / 6) = 6 * (ε + (300 + 200 * N) * u) / (5 * c.ka) := by field_simp
  rw [← e] at hsmall ⊢
  exact (rest_roundsF R c hk.le hk1 hki up hu δ ε (5 * c.ka / 6) (1 / 2) _ N hδ hε (by linarith) (by linarith) rfl
    (by linarith [Real.pi_gt_three]) (contract_narrow c.ka hk.le hk1) hsmall ms h0 rounds h hN).2

/-! ## The measurements of the static tilt test -/

open Verif.Standalone.Cf in
/-- **C112.** The measurements of the static tilt test, whatever the noise, with rounding: the bound of `C110_program` grows by
`6000 · 2⁻⁵³`, less than `10⁻¹²`, however long the test runs. -/
theorem C112_program (km lp : ℝ) (n : ℕ) (τ : ℝ) (na ng : ℕ → Vector3d) (ρ w : ℝ) (h0 : 0 ≤ ρ) (h1 : ρ < 1 / 2) (hw : 0 ≤ w)
    (ha : ∀ i < n, magnitude (na i) ≤ ρ * G) (hg : ∀ i < n, magnitude (ng i) ≤ w)
    (hτ : |τ| + Real.arcsin ρ ≤ 1 / 2) (hsmall : 2 * Real.arcsin ρ + 12 * (w / 100 + 500 * u) ≤ 1 / 2) :
    tiltErrorF (fRun R ⟨1 / 10, km, 0, lp⟩ (messages (tiltRounds τ na ng n))) ⟨-Real.sin τ, 0, Real.cos τ⟩ ≤
      (11 / 12) ^ n * |τ| + (Real.arcsin ρ + 12 * (w / 100 + 500 * u)) := by
  have hpi := Real.pi_gt_three
  have hρ0 : 0 ≤ Real.arcsin ρ := Real.arcsin_nonneg.mpr h0
  have hu : dot (⟨-Real.sin τ, 0, Real.cos τ⟩ : Vector3d) ⟨-Real.sin τ, 0, Real.cos τ⟩ = 1 := by
    simp only [dot]
    linear_combination Real.sin_sq_add_cos_sq τ
  have hr := tilt_rest τ na ng n ρ w h0 h1 hw ha hg
  have hG : G = 9.81 := rfl
  have hst : tiltErrorF (fRun R ⟨1 / 10, km, 0, lp⟩ []) ⟨-Real.sin τ, 0, Real.cos τ⟩ = |τ| := by
    have hd : dot (⟨-Real.sin τ, 0, Real.cos τ⟩ : Vector3d)
        (toDevice (fRun R ⟨1 / 10, km, 0, lp⟩ []).q.normalized vertical) = Real.cos |τ| := by
      rw [Real.cos_abs]
      have hE : ¬ (1 : ℝ) < EPSILON := by norm_num [EPSILON]
      simp [fRun, fInit, Quat.one, Quat.normalized_div, Quat.normSq, toDevice, vertical, dot, hE]
    unfold tiltErrorF angleBetween
    rw [hd]
    exact Real.arccos_cos (abs_nonneg _) (by linarith)
  have e2 : 6 * (w / 100 + (300 + 200 * (1 : ℕ)) * u) / (5 * (1 / 10 : ℝ)) =
      12 * (w / 100 + 500 * u) := by push_cast; ring
  have hb := C112_small R ⟨1 / 10, km, 0, lp⟩ (by norm_num) (by norm_num) (by norm_num [CF_DOUBLE_EPSILON]) _ hu
    (Real.arcsin ρ) (w / 100) 1 hρ0 (by positivity) (by dsimp only; rw [e2]; exact hsmall) [] (by rw [hst]; exact hτ) _ hr
    (by
      intro r hr
      simp only [tiltRounds, List.mem_map, List.mem_range] at hr
      obtain ⟨i, hi, rfl⟩ := hr
      constructor
      · have := (C110_noise ⟨-Real.sin τ, 0, Real.cos τ⟩ (tiltedAccel τ (na i) i).values hu G ρ (by rw [hG]; norm_num) h0 (by linarith) (by
          have e : (⟨(tiltedAccel τ (na i) i).values.x - G * -Real.sin τ, (tiltedAccel τ (na i) i).values.y - G * 0,
              (tiltedAccel τ (na i) i).values.z - G * Real.cos τ⟩ : Vector3d) = na i := by
            apply vec_ext <;> simp only [tiltedAccel] <;> norm_num
          dsimp only
          rw [e]
          exact ha i hi)).1
        refine le_trans ?_ this
        have hE := eps_small
        rw [hG]
        linarith
      · simp [gyroCount, toLib, tiltedGyro, tiltedMagn])
  rw [hst, List.nil_append] at hb
  have hlen : (tiltRounds τ na ng n).length = n := by simp [tiltRounds]
  dsimp only at hb
  have e1 : (1 - 5 * (1 / 10 : ℝ) / 6) = 11 / 12 := by norm_num
  rw [hlen, e1, e2] at hb
  exact hb

/-- A device pitched by a tenth of a radian with an accelerometer that is off by 1 cm/s² sideways and a gyroscope bias of
0.005 rad/s on each axis, in 53-bit arithmetic: after a thousand samples the tilt is found to within 0.003 rad. -/
example : tiltErrorF (fRun nearest ⟨1 / 10, 0.1, 0, 0.1⟩ (messages (Standalone.Cf.tiltRounds (1 / 10) (fun _ => ⟨0, 0.01, 0⟩)
      (fun _ => ⟨0.005, 0.005, 0.005⟩) 1000))) ⟨-Real.sin (1 / 10), 0, Real.cos (1 / 10)⟩ ≤ 0.003 := by
  have has : Real.arcsin (1 / 980) ≤ 103 / 100000 := Standalone.Cf.arcsin_small _ _ (by norm_num) (by norm_num) (by norm_num)
  have has0 : 0 ≤ Real.arcsin (1 / 980) := Real.arcsin_nonneg.mpr (by norm_num)
  have hu := u_small
  have hu0 := u_pos
  have hb := C112_program nearest 0.1 0.1 1000 (1 / 10) (fun _ => ⟨0, 0.01, 0⟩) (fun _ => ⟨0.005, 0.005, 0.005⟩) (1 / 980) 0.01
    (by norm_num) (by norm_num) (by norm_num)
    (fun i _ => by
      unfold magnitude
      rw [Real.sqrt_le_iff]
      constructor <;> norm_num [Standalone.Cf.G])
    (fun i _ => by
      unfold magnitude
      rw [Real.sqrt_le_iff]
      constructor <;> norm_num)
    (by rw [abs_of_nonneg (by norm_num)]; linarith) (by norm_num at hu ⊢; linarith)
  refine hb.trans ?_
  have h1 : ((11 : ℝ) / 12) ^ 1000 ≤ (11 / 12) ^ 100 := pow_le_pow_of_le_one (by norm_num) (by norm_num) (by norm_num)
  have h2 : ((11 : ℝ) / 12) ^ 100 ≤ 1 / 1000 := by norm_num
  rw [abs_of_nonneg (show (0 : ℝ) ≤ 1 / 10 by norm_num)]
  have h3 := h1.trans h2
  clear h1 h2
  generalize ((11 : ℝ) / 12) ^ 1000 = P at *
  norm_num at hu ⊢
  linarith

end Verif.Fp
