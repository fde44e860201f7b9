import Verif.Fusion.Slerp
import Mathlib.Geometry.Euclidean.Angle.Unoriented.TriangleInequality
import Mathlib.Analysis.InnerProductSpace.PiL2
import Mathlib.Analysis.Real.Pi.Bounds

/-! # C110: the tilt of a device at rest, with sensors that err -/

namespace Verif.Fusion

open Verif Verif.Pedo

/-! ## Specification -/

/-- The angle between two directions (unit vectors). -/
noncomputable def angleBetween (a b : Vector3d) : ℝ := Real.arccos (dot a b)

/-- The error of the tilt: the angle between the true upward direction `u`, in the frame of the device, and what the filter
holds for it. -/
noncomputable def tiltError (s : CfState) (u : Vector3d) : ℝ := angleBetween u (toDevice s.q vertical)

/-- The time of the last gyroscope message of a history. -/
def lastGyro (ms : List SensorMeasurement) : Option Int :=
  ((ms.filter (fun m => m.data.type = SensorType.GYROSCOPE)).getLast?).map Stamped.ts

/-- The rotation that the gyroscope messages of a list report in all: the sum of rate times time, each time counted from
the gyroscope message before, `t` before the list. For a device at rest all of it is error. -/
noncomputable def reported : Option Int → List SensorMeasurement → ℝ
  | _, [] => 0
  | t, m :: ms => if m.data.type = SensorType.GYROSCOPE then
      magnitude m.data.values * (|((m.ts - t.getD m.ts : Int) : ℝ)| / 1000) + reported (some m.ts) ms
    else reported t ms

/-- Some accelerometer messages, each followed by other messages: the messages of a list of rounds. -/
def messages (rounds : List (SensorMeasurement × List SensorMeasurement)) : List SensorMeasurement :=
  rounds.flatMap (fun r => r.1 :: r.2)

/-- What is asked of the sensors of a device at rest with upward direction `u`, after the history `ms`: each accelerometer
message is off by at most `δ`, the gyroscope messages between two of them report at most the rotation `ε`. -/
structure RestRounds (u : Vector3d) (δ ε : ℝ) (ms : List SensorMeasurement)
    (rounds : List (SensorMeasurement × List SensorMeasurement)) : Prop where
  accel : ∀ r ∈ rounds, r.1.data.type = SensorType.ACCELEROMETER ∧ EPSILON < magnitude r.1.data.values ∧
    angleBetween u (direction r.1.data.values) ≤ δ
  other : ∀ r ∈ rounds, ∀ m ∈ r.2, m.data.type ≠ SensorType.ACCELEROMETER
  gyro : ∀ before r after, rounds = before ++ r :: after → reported (lastGyro (ms ++ messages before)) r.2 ≤ ε
  stamps : ∀ m ∈ ms ++ messages rounds, m.data.type = SensorType.GYROSCOPE → m.ts ≠ -1
  magn : ∀ p m r, messages rounds = p ++ m :: r → m.data.type = SensorType.MAGNETOMETER →
    ∃ g ∈ ms ++ p, g.data.type = SensorType.GYROSCOPE

/-! ## Angles -/

/-- A vector as a point of Euclidean space. -/
noncomputable def toE (v : Vector3d) : EuclideanSpace ℝ (Fin 3) := !₂[v.x, v.y, v.z]

theorem inner_toE (a b : Vector3d) : inner ℝ (toE a) (toE b) = dot a b := by
  simp only [toE, dot, PiLp.inner_apply, Fin.sum_univ_three]
  simp
  ring

theorem norm_toE (a : Vector3d) (h : dot a a = 1) : ‖toE a‖ = 1 := by
  rw [norm_eq_sqrt_real_inner, inner_toE, h, Real.sqrt_one]

theorem angle_toE (a b : Vector3d) (ha : dot a a = 1) (hb : dot b b = 1) :
    angleBetween a b = InnerProductGeometry.angle (toE a) (toE b) := by
  unfold InnerProductGeometry.angle angleBetween
  rw [norm_toE a ha, norm_toE b hb, inner_toE, mul_one, div_one]

theorem angle_tri (a b c : Vector3d) (ha : dot a a = 1) (hb : dot b b = 1) (hc : dot c c = 1) :
    angleBetween a c ≤ angleBetween a b + angleBetween b c := by
  rw [angle_toE a c ha hc, angle_toE a b ha hb, angle_toE b c hb hc]
  exact InnerProductGeometry.angle_le_angle_add_angle _ _ _

theorem angle_symm (a b : Vector3d) : angleBetween a b = angleBetween b a := by
  unfold angleBetween
  rw [dot_comm]

theorem dot_range (a b : Vector3d) (ha : dot a a = 1) (hb : dot b b = 1) : -1 ≤ dot a b ∧ dot a b ≤ 1 := by
  have h1 := cauchy a b ha hb
  have h2 := dot_self_nonneg (cross a b)
  have h3 : dot a b ^ 2 ≤ 1 := by linarith
  exact abs_le.mp (abs_le_one_iff_mul_self_le_one.mpr (by rw [← sq]; exact h3))

theorem cos_angle (a b : Vector3d) (ha : dot a a = 1) (hb : dot b b = 1) : Real.cos (angleBetween a b) = dot a b := by
  obtain ⟨h1, h2⟩ := dot_range a b ha hb
  exact Real.cos_arccos h1 h2

theorem angle_nonneg (a b : Vector3d) : 0 ≤ angleBetween a b := Real.arccos_nonneg _

theorem angle_le_pi (a b : Vector3d) : angleBetween a b ≤ Real.pi := Real.arccos_le_pi _

/-- A rotation moves no direction by more than its angle. -/
theorem rotate_angle (n : Vector3d) (hn : dot n n = 1) (α : ℝ) (v : Vector3d) (hv : dot v v = 1) :
    angleBetween (rotateAbout n α v) v ≤ |α| ∧ dot (rotateAbout n α v) (rotateAbout n α v) = 1 := by
  have hd : dot (rotateAbout n α v) v = Real.cos α + (1 - Real.cos α) * dot n v ^ 2 := by
    have : dot (rotateAbout n α v) v = Real.cos α * dot v v + (1 - Real.cos α) * dot n v ^ 2 := by
      unfold rotateAbout dot
      ring
    rw [this, hv, mul_one]
  constructor
  · by_cases h : |α| ≤ Real.pi
    · unfold angleBetween
      rw [hd]
      have : Real.arccos (Real.cos |α|) = |α| := Real.arccos_cos (abs_nonneg _) h
      rw [← this, Real.cos_abs]
      apply Real.arccos_le_arccos
      have := mul_nonneg (sub_nonneg.mpr (Real.cos_le_one α)) (sq_nonneg (dot n v))
      linarith
    · exact (angle_le_pi _ _).trans (not_le.mp h).le
  · have hs := Real.sin_sq_add_cos_sq α
    have hc : (n.y * v.z - n.z * v.y) ^ 2 + (n.z * v.x - n.x * v.z) ^ 2 + (n.x * v.y - n.y * v.x) ^ 2 = 1 - dot n v ^ 2 := by
      have := cauchy n v hn hv
      unfold dot cross at this
      unfold dot
      linear_combination this
    unfold dot at hv hn hc
    unfold rotateAbout dot
    dsimp only
    generalize Real.cos α = c at *
    generalize Real.sin α = s at *
    have hs2 : s ^ 2 = 1 - c ^ 2 := by linarith
    generalize hd' : n.x * v.x + n.y * v.y + n.z * v.z = d at *
    linear_combination s ^ 2 * hc + c ^ 2 * hv + (1 - c) ^ 2 * d ^ 2 * hn + 2 * c * (1 - c) * d * hd' + (1 - d ^ 2) * hs2

/-- `2 arctan (x / 2)` for `0 ≤ x`. -/
theorem two_arctan (x : ℝ) (h : 0 ≤ x) :
    0 ≤ 2 * Real.arctan (x / 2) ∧ 2 * Real.arctan (x / 2) ≤ x ∧ x - x ^ 3 / 12 ≤ 2 * Real.arctan (x / 2) := by
  have e : x * (((1000 : Int) : ℝ) / 1000) = x := by push_cast; ring
  have := C90_turn x 1000 (by rw [e]; exact h)
  unfold turn at this
  rw [e] at this
  exact this

/-! ## One message -/

theorem tilt_cos (q : Quat) (u : Vector3d) : angleBetween u (toDevice q vertical) = Real.arccos (alignment q u) := rfl

/-- An accelerometer message, exactly: the angle between the measured direction and the held vertical. -/
theorem accel_angle (q : Quat) (h : q.normSq = 1) (a : Vector3d) (ha : dot a a = 1) (k : ℝ) (hk : 0 ≤ k) (hk1 : k ≤ 1) :
    let θ := angleBetween a (toDevice q vertical)
    angleBetween a (toDevice (updateQuaternion q (vscale k (cross a (toDevice q vertical)))) vertical) =
      θ - 2 * Real.arctan (k * Real.sin θ / 2) := by
  intro θ
  have hup := up_unit q h
  have h0 : 0 ≤ θ := angle_nonneg _ _
  have hpi : θ ≤ Real.pi := angle_le_pi _ _
  have hs0 : 0 ≤ Real.sin θ := Real.sin_nonneg_of_nonneg_of_le_pi h0 hpi
  have hs1 : Real.sin θ ≤ θ := Real.sin_le h0
  have hcos : Real.cos θ = alignment q a := cos_angle a _ ha hup
  obtain ⟨t1, t2, -⟩ := two_arctan (k * Real.sin θ) (mul_nonneg hk hs0)
  have ht : k * Real.sin θ ≤ θ := (mul_le_of_le_one_left hs0 hk1).trans hs1
  rw [tilt_cos, align_update q h a ha k, ← hcos]
  have key : ((1 - k ^ 2 * (1 - Real.cos θ ^ 2) / 4) * Real.cos θ + k * (1 - Real.cos θ ^ 2)) /
      (1 + k ^ 2 * (1 - Real.cos θ ^ 2) / 4) = Real.cos (θ - 2 * Real.arctan (k * Real.sin θ / 2)) := by
    have hsq := Real.sin_sq_add_cos_sq θ
    have e : 1 - Real.cos θ ^ 2 = Real.sin θ ^ 2 := by linarith
    rw [Real.cos_sub, cos_turn, sin_turn, e]
    have hp : (0 : ℝ) < 1 + (k * Real.sin θ / 2) ^ 2 := by positivity
    have hp' : (0 : ℝ) < 1 + k ^ 2 * Real.sin θ ^ 2 / 4 := by positivity
    field_simp
    ring
  rw [key]
  exact Real.arccos_cos (by linarith) (by linarith)

/-- An accelerometer message moves the held vertical along the great circle to the measured direction. -/
theorem accel_dot (q : Quat) (h : q.normSq = 1) (a : Vector3d) (ha : dot a a = 1) (k : ℝ) (w : Vector3d) :
    let θ := angleBetween a (toDevice q vertical)
    let f := 2 * Real.arctan (k * Real.sin θ / 2)
    Real.sin θ ≠ 0 →
    dot w (toDevice (updateQuaternion q (vscale k (cross a (toDevice q vertical)))) vertical) =
      (Real.sin (θ - f) * dot w (toDevice q vertical) + Real.sin f * dot w a) / Real.sin θ := by
  intro θ f hs
  have hup := up_unit q h
  have hcos : Real.cos θ = dot a (toDevice q vertical) := cos_angle a _ ha hup
  have hsq := Real.sin_sq_add_cos_sq θ
  have hcr := cauchy a (toDevice q vertical) ha hup
  have hn : dot (vscale (1 / Real.sin θ) (cross a (toDevice q vertical))) (vscale (1 / Real.sin θ) (cross a (toDevice q vertical))) = 1 := by
    have e : dot (vscale (1 / Real.sin θ) (cross a (toDevice q vertical))) (vscale (1 / Real.sin θ) (cross a (toDevice q vertical))) =
        dot (cross a (toDevice q vertical)) (cross a (toDevice q vertical)) / Real.sin θ ^ 2 := by
      simp only [dot, vscale]
      field_simp
    rw [e, hcr, ← hcos, div_eq_one_iff_eq (pow_ne_zero 2 hs)]
    linarith
  have hw : dot w (toDevice (updateQuaternion q (vscale k (cross a (toDevice q vertical)))) vertical) =
      dot (rotateAbout (vscale (1 / Real.sin θ) (cross a (toDevice q vertical))) f w) (toDevice q vertical) := by
    have e1 := alignment_world _ (update_unit q (vscale k (cross a (toDevice q vertical))) h) w
    have e2 := alignment_world q h (rotateAbout (vscale (1 / Real.sin θ) (cross a (toDevice q vertical))) f w)
    unfold alignment at e1 e2
    rw [e1, e2]
    congr 1
    apply update_rotates q h _ hn
    all_goals
      simp only [vscale]
      field_simp
  rw [hw, Real.sin_sub, hcos]
  generalize toDevice q vertical = g at *
  have hg := hup
  unfold dot at ha hg hcos hn
  unfold rotateAbout dot
  simp only [vscale, cross]
  generalize Real.sin θ = σ at *
  generalize Real.sin f = sf at *
  generalize Real.cos f = cf at *
  field_simp
  linear_combination (sf * (w.x * a.x + w.y * a.y + w.z * a.z) * σ) * hg

/-- The tilt after an accelerometer message: on a way from the held vertical to the measured direction the distance from `u` is at
most the mean. -/
theorem accel_tilt (q : Quat) (h : q.normSq = 1) (a : Vector3d) (ha : dot a a = 1) (k : ℝ) (hk : 0 ≤ k) (hk1 : k ≤ 1)
    (u : Vector3d) (hu : dot u u = 1) (he : angleBetween u (toDevice q vertical) ≤ Real.pi / 2)
    (hd : angleBetween u a ≤ Real.pi / 2) (s : ℝ) (hs0 : 0 ≤ s) (hs1 : s ≤ 1)
    (hs : s * angleBetween a (toDevice q vertical) = 2 * Real.arctan (k * Real.sin (angleBetween a (toDevice q vertical)) / 2)) :
    angleBetween u (toDevice (updateQuaternion q (vscale k (cross a (toDevice q vertical)))) vertical) ≤
      (1 - s) * angleBetween u (toDevice q vertical) + s * angleBetween u a := by
  have hup := up_unit q h
  have h0 := angle_nonneg a (toDevice q vertical)
  have hpi := angle_le_pi a (toDevice q vertical)
  have he0 := angle_nonneg u (toDevice q vertical)
  have hd0 := angle_nonneg u a
  by_cases hsin : Real.sin (angleBetween a (toDevice q vertical)) = 0
  · -- nothing happens
    have hz : cross a (toDevice q vertical) = ⟨0, 0, 0⟩ := by
      have hcr := cauchy a (toDevice q vertical) ha hup
      have := Real.sin_sq_add_cos_sq (angleBetween a (toDevice q vertical))
      rw [hsin, cos_angle a _ ha hup] at this
      have hz0 : dot (cross a (toDevice q vertical)) (cross a (toDevice q vertical)) = 0 := by rw [hcr]; linarith
      generalize cross a (toDevice q vertical) = w at *
      unfold dot at hz0
      have hx := mul_self_nonneg w.x
      have hy := mul_self_nonneg w.y
      have hz := mul_self_nonneg w.z
      apply vec_ext
      · exact mul_self_eq_zero.mp (by linarith)
      · exact mul_self_eq_zero.mp (by linarith)
      · exact mul_self_eq_zero.mp (by linarith)
    have hsame : dot u (toDevice (updateQuaternion q (vscale k (cross a (toDevice q vertical)))) vertical) =
        dot u (toDevice q vertical) := by
      rw [hz]
      have e1 := alignment_world _ (update_unit q (vscale k ⟨0, 0, 0⟩) h) u
      have e2 := alignment_world q h u
      unfold alignment at e1 e2
      rw [e1, e2, update_rotates q h ⟨1, 0, 0⟩ (by simp [dot]) 0 _ (by simp [vscale]) (by simp [vscale]) (by simp [vscale])]
      have : rotateAbout ⟨1, 0, 0⟩ (2 * Real.arctan (0 / 2)) u = u := by
        unfold rotateAbout
        simp
      rw [this]
    have : angleBetween u (toDevice (updateQuaternion q (vscale k (cross a (toDevice q vertical)))) vertical) =
        angleBetween u (toDevice q vertical) := by
      unfold angleBetween; rw [hsame]
    rw [this]
    rw [hsin, mul_zero, zero_div, Real.arctan_zero, mul_zero] at hs
    rcases mul_eq_zero.mp hs with h' | h'
    · rw [h']; linarith
    · have hea : a = toDevice q vertical := by
        have hc := cos_angle a _ ha hup
        rw [h', Real.cos_zero] at hc
        generalize toDevice q vertical = g at *
        unfold dot at ha hup hc
        have hx := mul_self_nonneg (a.x - g.x)
        have hy := mul_self_nonneg (a.y - g.y)
        have hz := mul_self_nonneg (a.z - g.z)
        apply vec_ext
        · exact sub_eq_zero.mp (mul_self_eq_zero.mp (by linarith))
        · exact sub_eq_zero.mp (mul_self_eq_zero.mp (by linarith))
        · exact sub_eq_zero.mp (mul_self_eq_zero.mp (by linarith))
      rw [hea]
      linarith
  · have hθ0 : 0 < angleBetween a (toDevice q vertical) := by
      rcases h0.lt_or_eq with h' | h'
      · exact h'
      · rw [← h'] at hsin; simp at hsin
    have hθ : angleBetween a (toDevice q vertical) < Real.pi := by
      rcases hpi.lt_or_eq with h' | h'
      · exact h'
      · rw [h'] at hsin; simp at hsin
    have hacc := accel_dot q h a ha k u hsin
    rw [← hs] at hacc
    have hab : |angleBetween u (toDevice q vertical) - angleBetween u a| ≤ angleBetween a (toDevice q vertical) := by
      have t1 := angle_tri u a _ hu ha hup
      have t2 := angle_tri u _ a hu hup ha
      rw [angle_symm (toDevice q vertical) a] at t2
      rw [abs_le]
      constructor <;> linarith
    have hsl := slerp_cos _ _ _ s hθ0 hθ he0 he hd0 hd hab hs0 hs1
    rw [cos_angle u _ hu hup, cos_angle u a hu ha] at hsl
    have e : (1 - s) * angleBetween a (toDevice q vertical) = angleBetween a (toDevice q vertical) - s * angleBetween a (toDevice q vertical) := by
      ring
    rw [e, ← hacc] at hsl
    have hm0 : 0 ≤ (1 - s) * angleBetween u (toDevice q vertical) + s * angleBetween u a :=
      add_nonneg (mul_nonneg (by linarith) he0) (mul_nonneg hs0 hd0)
    have hmpi : (1 - s) * angleBetween u (toDevice q vertical) + s * angleBetween u a ≤ Real.pi := by
      have m1 := mul_le_mul_of_nonneg_left he (show 0 ≤ 1 - s by linarith)
      have m2 := mul_le_mul_of_nonneg_left hd hs0
      have := Real.pi_pos
      linarith
    have := Real.arccos_le_arccos hsl
    rw [Real.arccos_cos hm0 hmpi] at this
    exact this

theorem unit_run (c : CfConfig) (j1 j2 : SensorType × Int) (ms : List SensorMeasurement) :
    (cfRun c j1 j2 ms).q.normSq = 1 := (cfInv_run c j1 j2 ms).unit

/-- **C110.** One accelerometer message that is off by at most `δ`: with `θ` the angle between the measured direction and the
vertical of the filter, which is at most the tilt error plus `δ`, the new tilt error is at most `θ - 2 arctan (k sin θ / 2) + δ`. -/
theorem C110_accel (c : CfConfig) (hk : 0 ≤ c.ka) (hk1 : c.ka ≤ 1) (j1 j2 : SensorType × Int) (ms : List SensorMeasurement)
    (m : SensorMeasurement) (hm : m.data.type = SensorType.ACCELEROMETER) (hv : EPSILON < magnitude m.data.values)
    (u : Vector3d) (hu : dot u u = 1) (δ : ℝ) (hδ : angleBetween u (direction m.data.values) ≤ δ) :
    ∃ θ, 0 ≤ θ ∧ θ ≤ tiltError (cfRun c j1 j2 ms) u + δ ∧
      tiltError (cfRun c j1 j2 (ms ++ [m])) u ≤ θ - 2 * Real.arctan (c.ka * Real.sin θ / 2) + δ := by
  have hq := unit_run c j1 j2 ms
  have ha := direction_unit _ hv
  have hup := up_unit _ hq
  have hup' := up_unit _ (unit_run c j1 j2 (ms ++ [m]))
  refine ⟨angleBetween (direction m.data.values) (toDevice (cfRun c j1 j2 ms).q vertical), angle_nonneg _ _, ?_, ?_⟩
  · have := angle_tri _ u _ ha hu hup
    rw [angle_symm _ u] at this
    unfold tiltError
    linarith
  · have := angle_tri u _ _ hu ha hup'
    unfold tiltError
    refine this.trans ?_
    have e := accel_angle _ hq _ ha c.ka hk hk1
    dsimp only at e
    rw [run_snoc, accel_update c _ hq m hm hv, e]
    linarith

/-- **C110.** One accelerometer message moves the held vertical by a part `s` of the way to the measured direction, and the error of
the tilt becomes at most the mean of the old error, with weight `1 - s`, and the error of the measured direction, with weight `s`
(if neither is more than a right angle): the message cannot make the tilt worse than the worse of the two. -/
theorem C110_pull (c : CfConfig) (hk : 0 ≤ c.ka) (hk1 : c.ka ≤ 1) (j1 j2 : SensorType × Int) (ms : List SensorMeasurement)
    (m : SensorMeasurement) (hm : m.data.type = SensorType.ACCELEROMETER) (hv : EPSILON < magnitude m.data.values)
    (u : Vector3d) (hu : dot u u = 1) (he : tiltError (cfRun c j1 j2 ms) u ≤ Real.pi / 2)
    (hd : angleBetween u (direction m.data.values) ≤ Real.pi / 2) (s : ℝ) (hs0 : 0 ≤ s) (hs1 : s ≤ 1)
    (hs : s * tiltError (cfRun c j1 j2 ms) (direction m.data.values) =
      2 * Real.arctan (c.ka * Real.sin (tiltError (cfRun c j1 j2 ms) (direction m.data.values)) / 2)) :
    tiltError (cfRun c j1 j2 (ms ++ [m])) u ≤
      (1 - s) * tiltError (cfRun c j1 j2 ms) u + s * angleBetween u (direction m.data.values) := by
  have hq := unit_run c j1 j2 ms
  unfold tiltError at *
  rw [run_snoc, accel_update c _ hq m hm hv]
  exact accel_tilt _ hq _ (direction_unit _ hv) c.ka hk hk1 u hu he hd s hs0 hs1 hs

/-- The part of the way, at least `κ` if the correction is at least the part `κ` of the angle. -/
theorem exists_part (k κ θ : ℝ) (hk : 0 ≤ k) (hk1 : k ≤ 1) (h0 : 0 ≤ θ) (hπ : θ ≤ Real.pi) (hκ0 : 0 ≤ κ) (hκ1 : κ ≤ 1)
    (hφ : θ - 2 * Real.arctan (k * Real.sin θ / 2) ≤ (1 - κ) * θ) :
    ∃ s, κ ≤ s ∧ s ≤ 1 ∧ s * θ = 2 * Real.arctan (k * Real.sin θ / 2) := by
  rcases h0.lt_or_eq with h | h
  · refine ⟨2 * Real.arctan (k * Real.sin θ / 2) / θ, ?_, ?_, div_mul_cancel₀ _ h.ne'⟩
    · rw [le_div_iff₀ h]; linarith
    · rw [div_le_one h]
      have hs0 : 0 ≤ Real.sin θ := Real.sin_nonneg_of_nonneg_of_le_pi h0 hπ
      have := (two_arctan _ (mul_nonneg hk hs0)).2.1
      have : k * Real.sin θ ≤ Real.sin θ := mul_le_of_le_one_left hs0 hk1
      have := Real.sin_le h0
      linarith
  · refine ⟨κ, le_refl _, hκ1, ?_⟩
    rw [← h]; simp

/-- One round: the error `x` before, `y` after the accelerometer message, `z` at the end; `P` bounds what is left of the error
at the start. -/
theorem round_bound {x y z d δ ε κ Θ P s : ℝ} (hκ : 0 < κ) (hκ1 : κ ≤ 1) (hε : 0 ≤ ε) (hΘ : 2 * δ + ε / κ ≤ Θ)
    (hP : 0 ≤ P) (hs : κ ≤ s) (hs1 : s ≤ 1) (hd : d ≤ δ) (hx : x + δ ≤ Θ) (hb : x ≤ P + (δ + ε / κ))
    (hy : y ≤ (1 - s) * x + s * d) (hz : z ≤ y + ε) : z + δ ≤ Θ ∧ z ≤ (1 - κ) * P + (δ + ε / κ) := by
  have h1 : s * d ≤ s * δ := mul_le_mul_of_nonneg_left hd (by linarith)
  have h2 : κ * (ε / κ) = ε := mul_div_cancel₀ _ hκ.ne'
  have h3 : ε ≤ ε / κ := by rw [le_div_iff₀ hκ]; exact mul_le_of_le_one_right hε hκ1
  have h4 : 0 ≤ (1 - κ) * P := mul_nonneg (by linarith) hP
  have h5 := mul_nonneg (show 0 ≤ 1 - κ by linarith) (sub_nonneg.mpr hb)
  have h6 := mul_nonneg (show 0 ≤ 1 - κ by linarith) (sub_nonneg.mpr hx)
  have h7 := mul_nonneg hκ.le (sub_nonneg.mpr hΘ)
  rcases le_total δ x with hc | hc
  · have h8 := mul_nonneg (sub_nonneg.mpr hs) (sub_nonneg.mpr hc)
    generalize ε / κ = b at *
    constructor <;> nlinarith
  · have h8 : (1 - s) * x ≤ (1 - s) * δ := mul_le_mul_of_nonneg_left hc (by linarith)
    generalize ε / κ = b at *
    constructor <;> linarith

/-- Every vector is a multiple of a direction. -/
theorem exists_axis (v : Vector3d) : ∃ n, dot n n = 1 ∧ v = ⟨magnitude v * n.x, magnitude v * n.y, magnitude v * n.z⟩ := by
  by_cases h : magnitude v = 0
  · have := magnitude_sq v
    rw [h] at this
    unfold dot at this
    have hx := mul_self_nonneg v.x
    have hy := mul_self_nonneg v.y
    have hz := mul_self_nonneg v.z
    refine ⟨⟨1, 0, 0⟩, by simp [dot], vec_ext ?_ ?_ ?_⟩
    · rw [h]; simp only [zero_mul]; exact mul_self_eq_zero.mp (by linarith)
    · rw [h]; simp only [zero_mul]; exact mul_self_eq_zero.mp (by linarith)
    · rw [h]; simp only [zero_mul]; exact mul_self_eq_zero.mp (by linarith)
  · refine ⟨direction v, ?_, ?_⟩
    · have := magnitude_sq v
      unfold dot at this
      unfold dot direction
      field_simp
      rw [this]
      ring
    · apply vec_ext <;> simp only [direction] <;> field_simp

/-- **C110.** One gyroscope message: the tilt error grows by no more than the angle between where the reported rotation takes the
new true upward direction `u'` and the true upward direction `u` before; for a device at rest (`u' = u`) this is at most
the rate times the time. -/
theorem C110_gyro (c : CfConfig) (hki : c.ki ≤ CF_DOUBLE_EPSILON) (j1 j2 : SensorType × Int)
    (ms : List SensorMeasurement) (hts : ∀ m ∈ ms, m.data.type = SensorType.GYROSCOPE → m.ts ≠ -1)
    (m : SensorMeasurement) (hm : m.data.type = SensorType.GYROSCOPE) (u u' : Vector3d) (hu : dot u u = 1) (hu' : dot u' u' = 1) :
    (∀ n ω, dot n n = 1 → m.data.values = ⟨ω * n.x, ω * n.y, ω * n.z⟩ →
      tiltError (cfRun c j1 j2 (ms ++ [m])) u' ≤ tiltError (cfRun c j1 j2 ms) u +
        angleBetween (rotateAbout n (turn ω (m.ts - (lastGyro ms).getD m.ts)) u') u) ∧
    tiltError (cfRun c j1 j2 (ms ++ [m])) u ≤ tiltError (cfRun c j1 j2 ms) u +
      magnitude m.data.values * (|((m.ts - (lastGyro ms).getD m.ts : Int) : ℝ)| / 1000) := by
  have hq := unit_run c j1 j2 ms
  have hup := up_unit _ hq
  have hl := gyro_seen c j1 j2 ms hts
  have hold : (if (cfRun c j1 j2 ms).lastGyroTs = -1 then m.ts else (cfRun c j1 j2 ms).lastGyroTs) =
      (lastGyro ms).getD m.ts := by
    rw [hl]
    unfold lastGyro
    cases hg : (ms.filter (fun m => m.data.type = SensorType.GYROSCOPE)).getLast? with
    | none => simp
    | some g =>
      have hgm : g ∈ ms ∧ g.data.type = SensorType.GYROSCOPE := by
        have := List.mem_of_getLast? hg
        simpa using this
      simp only [Option.map_some, Option.getD_some]
      rw [if_neg (hts g hgm.1 hgm.2)]
  have main : ∀ n ω (w : Vector3d), dot n n = 1 → dot w w = 1 → m.data.values = ⟨ω * n.x, ω * n.y, ω * n.z⟩ →
      tiltError (cfRun c j1 j2 (ms ++ [m])) w ≤ tiltError (cfRun c j1 j2 ms) u +
        angleBetween (rotateAbout n (turn ω (m.ts - (lastGyro ms).getD m.ts)) w) u := by
    intro n ω w hn hw hω
    unfold tiltError
    rw [tilt_cos, alignment_world _ (unit_run c j1 j2 (ms ++ [m]))]
    have hr : toWorld (cfRun c j1 j2 (ms ++ [m])).q w =
        toWorld (cfRun c j1 j2 ms).q (rotateAbout n (turn ω (m.ts - (lastGyro ms).getD m.ts)) w) := by
      rw [run_snoc, gyro_update c _ m hm (integral_zero c hki j1 j2 ms), hold]
      unfold turn
      apply update_rotates _ hq n hn
      all_goals
        rw [hω]
        simp only [vscale]
        ring
    rw [hr, ← alignment_world _ hq, ← tilt_cos]
    have := angle_tri (rotateAbout n (turn ω (m.ts - (lastGyro ms).getD m.ts)) w) u _
      (rotate_angle n hn _ w hw).2 hu hup
    linarith
  refine ⟨fun n ω hn hω => main n ω u' hn hu' hω, ?_⟩
  obtain ⟨n, hn, hω⟩ := exists_axis m.data.values
  have h1 := main n (magnitude m.data.values) u hn hu hω
  have h2 := (rotate_angle n hn (turn (magnitude m.data.values) (m.ts - (lastGyro ms).getD m.ts)) u hu).1
  refine h1.trans ?_
  have h3 : |turn (magnitude m.data.values) (m.ts - (lastGyro ms).getD m.ts)| ≤
      magnitude m.data.values * (|((m.ts - (lastGyro ms).getD m.ts : Int) : ℝ)| / 1000) := by
    unfold turn
    generalize m.ts - (lastGyro ms).getD m.ts = d
    have hmag := magnitude_nonneg m.data.values
    generalize magnitude m.data.values = r at *
    have e : |2 * Real.arctan (r * ((d : ℝ) / 1000) / 2)| = 2 * Real.arctan (r * (|(d : ℝ)| / 1000) / 2) := by
      rcases le_total 0 (d : ℝ) with hd | hd
      · rw [abs_of_nonneg hd]
        exact abs_of_nonneg (two_arctan _ (by positivity)).1
      · rw [abs_of_nonpos hd]
        have : r * (d / 1000) / 2 = -(r * (-(d : ℝ) / 1000) / 2) := by ring
        rw [this, Real.arctan_neg, mul_neg, abs_neg]
        refine abs_of_nonneg (two_arctan _ ?_).1
        have : 0 ≤ -(d : ℝ) := by linarith
        positivity
    rw [e]
    exact (two_arctan _ (by positivity)).2.1
  linarith

/-! ## Rounds -/

theorem lastGyro_snoc (ms : List SensorMeasurement) (m : SensorMeasurement) :
    lastGyro (ms ++ [m]) = if m.data.type = SensorType.GYROSCOPE then some m.ts else lastGyro ms := by
  unfold lastGyro
  rw [List.filter_append]
  by_cases h : m.data.type = SensorType.GYROSCOPE
  · simp [h]
  · simp [h]

/-- The messages between two accelerometer messages. -/
theorem others (c : CfConfig) (hki : c.ki ≤ CF_DOUBLE_EPSILON) (j1 j2 : SensorType × Int) (u : Vector3d) (hu : dot u u = 1)
    (l ms : List SensorMeasurement) (hts : ∀ m ∈ ms ++ l, m.data.type = SensorType.GYROSCOPE → m.ts ≠ -1)
    (hacc : ∀ m ∈ l, m.data.type ≠ SensorType.ACCELEROMETER)
    (hmagn : ∀ p m r, l = p ++ m :: r → m.data.type = SensorType.MAGNETOMETER →
      ∃ g ∈ ms ++ p, g.data.type = SensorType.GYROSCOPE) :
    tiltError (cfRun c j1 j2 (ms ++ l)) u ≤ tiltError (cfRun c j1 j2 ms) u + reported (lastGyro ms) l := by
  induction l generalizing ms with
  | nil => simp [reported]
  | cons m l ih =>
    have h1 := ih (ms ++ [m]) (by simpa using hts) (fun x hx => hacc x (by simp [hx]))
      (fun p x r e hx => by
        obtain ⟨g, hg, hg'⟩ := hmagn (m :: p) x r (by rw [e]; rfl) hx
        exact ⟨g, by simpa using hg, hg'⟩)
    rw [List.append_assoc, List.singleton_append, lastGyro_snoc] at h1
    by_cases hg : m.data.type = SensorType.GYROSCOPE
    · rw [if_pos hg] at h1
      have h2 := (C110_gyro c hki j1 j2 ms (fun x hx => hts x (by simp [hx])) m hg u u hu hu).2
      rw [reported, if_pos hg]
      linarith
    · rw [if_neg hg] at h1
      rw [reported, if_neg hg]
      have hq : (cfRun c j1 j2 (ms ++ [m])).q = (cfRun c j1 j2 ms).q := by
        rw [run_snoc]
        by_cases hm : m.data.type = SensorType.MAGNETOMETER
        · apply magn_after_gyro c _ m hm
          obtain ⟨g, hgin, hgt⟩ := hmagn [] m l rfl hm
          rw [List.append_nil] at hgin
          rw [gyro_seen c j1 j2 ms (fun x hx => hts x (by simp [hx]))]
          have hne : ms.filter (fun m => m.data.type = SensorType.GYROSCOPE) ≠ [] := by
            apply List.ne_nil_of_mem (a := g)
            rw [List.mem_filter]
            exact ⟨hgin, by simpa using hgt⟩
          rw [List.getLast?_eq_getLast_of_ne_nil hne]
          have hin := List.getLast_mem hne
          rw [List.mem_filter] at hin
          exact hts _ (List.mem_append_left _ hin.1) (by simpa using hin.2)
        · unfold cfUpdate
          cases h : m.data.type with
          | ACCELEROMETER => exact absurd h (hacc m (by simp))
          | MAGNETOMETER => exact absurd h hm
          | GYROSCOPE => exact absurd h hg
          | BAROMETER => rfl
          | LOCATION => rfl
          | ORIENTATION => rfl
      have e : tiltError (cfRun c j1 j2 (ms ++ [m])) u = tiltError (cfRun c j1 j2 ms) u := by
        unfold tiltError
        rw [hq]
      linarith

theorem messages_snoc (rounds : List (SensorMeasurement × List SensorMeasurement)) (r : SensorMeasurement × List SensorMeasurement) :
    messages (rounds ++ [r]) = messages rounds ++ [r.1] ++ r.2 := by
  simp [messages]

theorem rest_prefix {u : Vector3d} {δ ε : ℝ} {ms : List SensorMeasurement}
    {rounds : List (SensorMeasurement × List SensorMeasurement)} {r : SensorMeasurement × List SensorMeasurement}
    (h : RestRounds u δ ε ms (rounds ++ [r])) : RestRounds u δ ε ms rounds where
  accel x hx := h.accel x (by simp [hx])
  other x hx := h.other x (by simp [hx])
  gyro b x a e := h.gyro b x (a ++ [r]) (by rw [e]; simp)
  stamps m hm := h.stamps m (by
    rw [messages_snoc]
    rcases List.mem_append.mp hm with h' | h' <;> simp [h'])
  magn p m q e := h.magn p m (q ++ [r.1] ++ r.2) (by rw [messages_snoc, e]; simp)

/-- The rounds, with any contraction. -/
theorem rest_rounds (c : CfConfig) (hk : 0 ≤ c.ka) (hk1 : c.ka ≤ 1) (hki : c.ki ≤ CF_DOUBLE_EPSILON) (j1 j2 : SensorType × Int)
    (u : Vector3d) (hu : dot u u = 1) (δ ε κ Θ : ℝ) (hε : 0 ≤ ε) (hκ : 0 < κ) (hκ1 : κ ≤ 1) (hΘπ : Θ ≤ Real.pi / 2)
    (hφ : ∀ θ, 0 ≤ θ → θ ≤ Θ → θ - 2 * Real.arctan (c.ka * Real.sin θ / 2) ≤ (1 - κ) * θ)
    (hΘ : 2 * δ + ε / κ ≤ Θ) (ms : List SensorMeasurement)
    (h0 : tiltError (cfRun c j1 j2 ms) u + δ ≤ Θ) (hδ : 0 ≤ δ) (rounds : List (SensorMeasurement × List SensorMeasurement))
    (h : RestRounds u δ ε ms rounds) :
    tiltError (cfRun c j1 j2 (ms ++ messages rounds)) u + δ ≤ Θ ∧
    tiltError (cfRun c j1 j2 (ms ++ messages rounds)) u ≤
      (1 - κ) ^ rounds.length * tiltError (cfRun c j1 j2 ms) u + (δ + ε / κ) := by
  have hb0 : 0 ≤ ε / κ := div_nonneg hε hκ.le
  induction rounds using List.reverseRecOn with
  | nil =>
    simp only [messages, List.flatMap_nil, List.append_nil, List.length_nil, pow_zero, one_mul]
    exact ⟨h0, by linarith⟩
  | append_singleton rounds r ih =>
    obtain ⟨i1, i2⟩ := ih (rest_prefix h)
    obtain ⟨a1, a2, a3⟩ := h.accel r (by simp)
    have ha := direction_unit _ a2
    have hup := up_unit _ (unit_run c j1 j2 (ms ++ messages rounds))
    have hθ : tiltError (cfRun c j1 j2 (ms ++ messages rounds)) (direction r.1.data.values) ≤ Θ := by
      have := angle_tri _ u _ ha hu hup
      rw [angle_symm _ u] at this
      unfold tiltError at *
      linarith
    have hθ0 : 0 ≤ tiltError (cfRun c j1 j2 (ms ++ messages rounds)) (direction r.1.data.values) := angle_nonneg _ _
    have hx0 : 0 ≤ tiltError (cfRun c j1 j2 (ms ++ messages rounds)) u := angle_nonneg _ _
    obtain ⟨s, s1, s2, s3⟩ := exists_part c.ka κ _ hk hk1 hθ0 (angle_le_pi _ _) hκ.le hκ1 (hφ _ hθ0 hθ)
    have hpull := C110_pull c hk hk1 j1 j2 (ms ++ messages rounds) r.1 a1 a2 u hu (by linarith) (by linarith) s (by linarith) s2 s3
    have o := others c hki j1 j2 u hu r.2 (ms ++ messages rounds ++ [r.1])
      (fun m hm => h.stamps m (by rw [messages_snoc]; simpa using hm))
      (h.other r (by simp))
      (fun p m q e hm => by
        obtain ⟨g, hg, hg'⟩ := h.magn (messages rounds ++ [r.1] ++ p) m q (by rw [messages_snoc, e]; simp) hm
        exact ⟨g, by simpa using hg, hg'⟩)
    have hg := h.gyro rounds r [] rfl
    have hlg : lastGyro (ms ++ messages rounds ++ [r.1]) = lastGyro (ms ++ messages rounds) := by
      rw [lastGyro_snoc, if_neg]
      rw [a1]
      decide
    rw [hlg] at o
    have e : ms ++ messages (rounds ++ [r]) = ms ++ messages rounds ++ [r.1] ++ r.2 := by
      rw [messages_snoc]; simp
    rw [e, List.length_append, List.length_singleton, pow_succ, mul_comm _ (1 - κ), mul_assoc]
    exact round_bound hκ hκ1 hε hΘ (mul_nonneg (pow_nonneg (by linarith) _) (angle_nonneg _ _)) s1 s2 a3 i1 i2 hpull (by linarith)

theorem contract_wide (k : ℝ) (hk : 0 ≤ k) (hk1 : k ≤ 1) (θ : ℝ) (h0 : 0 ≤ θ) (h1 : θ ≤ Real.pi / 2) :
    θ - 2 * Real.arctan (k * Real.sin θ / 2) ≤ (1 - k / 2) * θ := by
  have hs := Real.mul_le_sin h0 h1
  have hs0 : 0 ≤ Real.sin θ := Real.sin_nonneg_of_nonneg_of_le_pi h0 (by linarith [Real.pi_pos])
  have hs1 := Real.sin_le_one θ
  have hx0 : 0 ≤ k * Real.sin θ := mul_nonneg hk hs0
  have hx1 : k * Real.sin θ ≤ 1 := mul_le_one₀ hk1 hs0 hs1
  obtain ⟨-, -, t⟩ := two_arctan _ hx0
  have h3 : (k * Real.sin θ) ^ 3 ≤ k * Real.sin θ := by
    have : (k * Real.sin θ) ^ 2 ≤ 1 := pow_le_one₀ hx0 hx1
    calc (k * Real.sin θ) ^ 3 = (k * Real.sin θ) * (k * Real.sin θ) ^ 2 := by ring
      _ ≤ (k * Real.sin θ) * 1 := mul_le_mul_of_nonneg_left this hx0
      _ = _ := mul_one _
  have h4 : k * (2 / Real.pi * θ) ≤ k * Real.sin θ := mul_le_mul_of_nonneg_left hs hk
  have h5 : 6 / 11 ≤ 2 / Real.pi := by
    rw [div_le_div_iff₀ (by norm_num) Real.pi_pos]
    linarith [Real.pi_lt_d2]
  have h6 : 6 / 11 * (k * θ) ≤ k * (2 / Real.pi * θ) := by
    have := mul_le_mul_of_nonneg_right h5 (mul_nonneg hk h0)
    linarith
  linarith

theorem contract_narrow (k : ℝ) (hk : 0 ≤ k) (hk1 : k ≤ 1) (θ : ℝ) (h0 : 0 ≤ θ) (h1 : θ ≤ 1 / 2) :
    θ - 2 * Real.arctan (k * Real.sin θ / 2) ≤ (1 - 5 * k / 6) * θ := by
  have hpi := Real.pi_gt_three
  have hs : 15 / 16 * θ ≤ Real.sin θ := by
    rcases h0.lt_or_eq with h | h
    · have := Real.sin_gt_sub_cube h
      have hc : θ ^ 3 ≤ θ / 4 := by
        have : θ ^ 2 ≤ (1 / 2) ^ 2 := pow_le_pow_left₀ h0 h1 2
        calc θ ^ 3 = θ * θ ^ 2 := by ring
          _ ≤ θ * (1 / 2) ^ 2 := mul_le_mul_of_nonneg_left this h0
          _ = _ := by ring
      linarith
    · rw [← h]; simp
  have hs0 : 0 ≤ Real.sin θ := Real.sin_nonneg_of_nonneg_of_le_pi h0 (by linarith)
  have hs1 := Real.sin_le_one θ
  have hx0 : 0 ≤ k * Real.sin θ := mul_nonneg hk hs0
  have hx1 : k * Real.sin θ ≤ 1 := mul_le_one₀ hk1 hs0 hs1
  obtain ⟨-, -, t⟩ := two_arctan _ hx0
  have h3 : (k * Real.sin θ) ^ 3 ≤ k * Real.sin θ := by
    have : (k * Real.sin θ) ^ 2 ≤ 1 := pow_le_one₀ hx0 hx1
    calc (k * Real.sin θ) ^ 3 = (k * Real.sin θ) * (k * Real.sin θ) ^ 2 := by ring
      _ ≤ (k * Real.sin θ) * 1 := mul_le_mul_of_nonneg_left this hx0
      _ = _ := mul_one _
  have h4 : k * (15 / 16 * θ) ≤ k * Real.sin θ := mul_le_mul_of_nonneg_left hs hk
  have h5 : 0 ≤ k * θ := mul_nonneg hk h0
  linarith

/-- **C110.** A device at rest. The filter may start with any tilt error up to a right angle less `δ`; every round of messages
with an accelerometer error of at most `δ` and a gyroscope error of at most `ε` diminishes it by the factor `1 - k/2`, down to
`δ + 2 ε / k` (if `2 δ + 2 ε / k` is at most a right angle). -/
theorem C110_rest (c : CfConfig) (hk : 0 < c.ka) (hk1 : c.ka ≤ 1) (hki : c.ki ≤ CF_DOUBLE_EPSILON) (j1 j2 : SensorType × Int)
    (u : Vector3d) (hu : dot u u = 1) (δ ε : ℝ) (hδ : 0 ≤ δ) (hε : 0 ≤ ε) (hsmall : 2 * δ + 2 * ε / c.ka ≤ Real.pi / 2)
    (ms : List SensorMeasurement) (h0 : tiltError (cfRun c j1 j2 ms) u + δ ≤ Real.pi / 2)
    (rounds : List (SensorMeasurement × List SensorMeasurement)) (h : RestRounds u δ ε ms rounds) :
    tiltError (cfRun c j1 j2 (ms ++ messages rounds)) u ≤
      (1 - c.ka / 2) ^ rounds.length * tiltError (cfRun c j1 j2 ms) u + (δ + 2 * ε / c.ka) := by
  have e : ε / (c.ka / 2) = 2 * ε / c.ka := by field_simp
  rw [← e] at hsmall ⊢
  exact (rest_rounds c hk.le hk1 hki j1 j2 u hu δ ε (c.ka / 2) (Real.pi / 2) hε (by linarith) (by linarith) (le_refl _)
    (contract_wide c.ka hk.le hk1) hsmall ms h0 hδ rounds h).2

/-- **C110.** The same for a tilt error that is at most half a radian: the factor is `1 - 5k/6` and what is left
`δ + 6 ε / (5 k)`; with the gain 0.1 of the library this is `δ + 12 ε`. -/
theorem C110_small (c : CfConfig) (hk : 0 < c.ka) (hk1 : c.ka ≤ 1) (hki : c.ki ≤ CF_DOUBLE_EPSILON) (j1 j2 : SensorType × Int)
    (u : Vector3d) (hu : dot u u = 1) (δ ε : ℝ) (hδ : 0 ≤ δ) (hε : 0 ≤ ε) (hsmall : 2 * δ + 6 * ε / (5 * c.ka) ≤ 1 / 2)
    (ms : List SensorMeasurement) (h0 : tiltError (cfRun c j1 j2 ms) u + δ ≤ 1 / 2)
    (rounds : List (SensorMeasurement × List SensorMeasurement)) (h : RestRounds u δ ε ms rounds) :
    tiltError (cfRun c j1 j2 (ms ++ messages rounds)) u ≤
      (1 - 5 * c.ka / 6) ^ rounds.length * tiltError (cfRun c j1 j2 ms) u + (δ + 6 * ε / (5 * c.ka)) := by
  have e : ε / (5 * c.ka / 6) = 6 * ε / (5 * c.ka) := by field_simp
  rw [← e] at hsmall ⊢
  exact (rest_rounds c hk.le hk1 hki j1 j2 u hu δ ε (5 * c.ka / 6) (1 / 2) hε (by linarith) (by linarith)
    (by linarith [Real.pi_gt_three]) (contract_narrow c.ka hk.le hk1) hsmall ms h0 hδ rounds h).2

/-- **C110.** The error of a direction in terms of the noise: if the measured acceleration is off the true one, `g` along the
upward direction, by at most the part `ρ < 1` of `g`, its direction is off by at most `arcsin ρ`. -/
theorem C110_noise (u a : Vector3d) (hu : dot u u = 1) (g ρ : ℝ) (hg : 0 < g) (h0 : 0 ≤ ρ) (h1 : ρ < 1)
    (h : magnitude ⟨a.x - g * u.x, a.y - g * u.y, a.z - g * u.z⟩ ≤ ρ * g) :
    g * (1 - ρ) ≤ magnitude a ∧ angleBetween u (direction a) ≤ Real.arcsin ρ := by
  have hsq := pow_le_pow_left₀ (magnitude_nonneg _) h 2
  rw [magnitude_sq] at hsq
  have he : dot (⟨a.x - g * u.x, a.y - g * u.y, a.z - g * u.z⟩ : Vector3d) ⟨a.x - g * u.x, a.y - g * u.y, a.z - g * u.z⟩ =
      magnitude a ^ 2 - 2 * g * dot u a + g ^ 2 := by
    have : dot (⟨a.x - g * u.x, a.y - g * u.y, a.z - g * u.z⟩ : Vector3d) ⟨a.x - g * u.x, a.y - g * u.y, a.z - g * u.z⟩ =
      dot a a - 2 * g * dot u a + g ^ 2 * dot u u := by unfold dot; ring
    rw [this, hu, magnitude_sq]; ring
  rw [he] at hsq
  have hcs : dot u a ≤ magnitude a := by
    obtain ⟨n, hn, hv⟩ := exists_axis a
    have e : dot u a = magnitude a * dot u n := by
      conv_lhs => rw [hv]
      unfold dot
      ring
    rw [e]
    exact mul_le_of_le_one_right (magnitude_nonneg a) (dot_range u n hu hn).2
  have hr : (0 : ℝ) ≤ 1 - ρ ^ 2 := by nlinarith
  have hm : g * (1 - ρ) ≤ magnitude a := by
    have h2 : (g - magnitude a) ^ 2 ≤ (ρ * g) ^ 2 := by
      have := mul_le_mul_of_nonneg_left hcs hg.le
      linarith
    have := (abs_le_of_sq_le_sq' h2 (by positivity)).2
    linarith
  refine ⟨hm, ?_⟩
  have hmp : 0 < magnitude a := lt_of_lt_of_le (mul_pos hg (by linarith)) hm
  rw [Real.arcsin_eq_arccos h0]
  unfold angleBetween
  apply Real.arccos_le_arccos
  have hd : dot u (direction a) = dot u a / magnitude a := by
    unfold dot direction
    field_simp
  rw [hd, le_div_iff₀ hmp]
  have hs := Real.sq_sqrt hr
  have h3 : 0 ≤ (magnitude a - g * Real.sqrt (1 - ρ ^ 2)) ^ 2 := sq_nonneg _
  have h4 : g * (Real.sqrt (1 - ρ ^ 2) * magnitude a) ≤ g * dot u a := by
    have e : (magnitude a - g * Real.sqrt (1 - ρ ^ 2)) ^ 2 =
        magnitude a ^ 2 - 2 * (g * (Real.sqrt (1 - ρ ^ 2) * magnitude a)) + g ^ 2 * Real.sqrt (1 - ρ ^ 2) ^ 2 := by ring
    rw [e, hs] at h3
    linarith
  exact le_of_mul_le_mul_left h4 hg

/-! ## The reported angles -/

/-- The pitch of a device with upward direction `u`. -/
noncomputable def pitchOf (u : Vector3d) : ℝ := Real.arcsin (-u.x)

theorem pitch_eq (q : Quat) (h : q.normSq = 1) : (toEuler q).2.1 = pitchOf (toDevice q vertical) := by
  have hs := sin_pitch q h
  obtain ⟨r1, r2⟩ := pitch_range q
  have e : -(toDevice q vertical).x = 2 * (q.w * q.y - q.z * q.x) := by
    simp only [toDevice, vertical]
    ring
  unfold pitchOf
  rw [e, ← hs, Real.arcsin_sin r1 r2]

/-- **C110.** From the tilt error to the reported angles, for any state the filter can be in: the pitch is off by at most the
tilt error; a device held level is reported with a roll of at most the tilt error; for a device that is only pitched, not
rolled, `cos pitch · |sin roll|` is at most the sine of the tilt error. -/
theorem C110_angles (c : CfConfig) (j1 j2 : SensorType × Int) (ms : List SensorMeasurement) (u : Vector3d) (hu : dot u u = 1) :
    let s := cfRun c j1 j2 ms
    |(getFusedOrientation s).pitch - pitchOf u| ≤ tiltError s u ∧
    (u = vertical → tiltError s u < Real.pi / 2 → |(getFusedOrientation s).roll| ≤ tiltError s u) ∧
    (u.y = 0 → Real.cos (getFusedOrientation s).pitch * |Real.sin (getFusedOrientation s).roll| ≤ Real.sin (tiltError s u)) := by
  intro s
  have hq : s.q.normSq = 1 := unit_run c j1 j2 ms
  have hup := up_unit _ hq
  obtain ⟨-, h2⟩ := sinp_sq s.q hq
  have hsp := sin_pitch s.q hq
  obtain ⟨r1, r2⟩ := pitch_range s.q
  have hcp0 : 0 ≤ Real.cos (toEuler s.q).2.1 := Real.cos_nonneg_of_neg_pi_div_two_le_of_le r1 r2
  have hcs := Real.sin_sq_add_cos_sq (toEuler s.q).2.1
  have ex : (toDevice s.q vertical).x = -(2 * (s.q.w * s.q.y - s.q.z * s.q.x)) := by simp only [toDevice, vertical]; ring
  have ey : (toDevice s.q vertical).y = 2 * (s.q.w * s.q.x + s.q.y * s.q.z) := by simp only [toDevice, vertical]; ring
  have ez : (toDevice s.q vertical).z = 1 - 2 * (s.q.x * s.q.x + s.q.y * s.q.y) := by simp only [toDevice, vertical]; ring
  have e2 : (toDevice s.q vertical).z ^ 2 + (toDevice s.q vertical).y ^ 2 = Real.cos (toEuler s.q).2.1 ^ 2 := by
    rw [hsp] at hcs; rw [ey, ez]; linarith
  have hroll : (getFusedOrientation s).roll = atan2 (toDevice s.q vertical).y (toDevice s.q vertical).z := by
    rw [ey, ez]; rfl
  have hpitch : (getFusedOrientation s).pitch = (toEuler s.q).2.1 := rfl
  refine ⟨?_, ?_, ?_⟩
  · rw [hpitch, pitch_eq s.q hq]
    unfold tiltError
    have hx : dot (⟨-1, 0, 0⟩ : Vector3d) ⟨-1, 0, 0⟩ = 1 := by norm_num [dot]
    have hp : ∀ v : Vector3d, pitchOf v = Real.pi / 2 - angleBetween ⟨-1, 0, 0⟩ v := by
      intro v
      unfold pitchOf angleBetween
      have : dot (⟨-1, 0, 0⟩ : Vector3d) v = -v.x := by simp [dot]
      rw [this, Real.arcsin_eq_pi_div_two_sub_arccos]
    rw [hp, hp]
    generalize toDevice s.q vertical = w at *
    have t1 := angle_tri _ u w hx hu hup
    have t2 := angle_tri _ w u hx hup hu
    rw [angle_symm w u] at t2
    rw [abs_le]
    constructor <;> linarith
  · intro hv hlt
    have hc : Real.cos (tiltError s u) = (toDevice s.q vertical).z := by
      unfold tiltError
      rw [cos_angle _ _ hu hup, hv]
      generalize toDevice s.q vertical = w
      simp [dot, vertical]
    have h0 : 0 ≤ tiltError s u := angle_nonneg _ _
    have hcpos : 0 < Real.cos (tiltError s u) := Real.cos_pos_of_mem_Ioo ⟨by linarith, hlt⟩
    have hcp : 0 < Real.cos (toEuler s.q).2.1 := by
      rcases hcp0.lt_or_eq with h' | h'
      · exact h'
      · rw [← h', ← hc] at e2
        have := sq_nonneg (toDevice s.q vertical).y
        have := pow_pos hcpos 2
        linarith
    have cr := cos_atan2 _ _ _ hcp e2
    rw [← hroll, ← hc] at cr
    have hle1 : Real.cos (toEuler s.q).2.1 ≤ 1 := Real.cos_le_one _
    have hge : Real.cos (tiltError s u) ≤ Real.cos (getFusedOrientation s).roll := by
      rw [cr, le_div_iff₀ hcp]
      exact mul_le_of_le_one_right hcpos.le hle1
    have hr := atan2_range (toDevice s.q vertical).y (toDevice s.q vertical).z
    rw [← hroll] at hr
    rw [← Real.cos_abs (getFusedOrientation s).roll] at hge
    by_contra hcon
    have := Real.cos_lt_cos_of_nonneg_of_le_pi h0 (abs_le.mpr ⟨hr.1.le, hr.2⟩) (not_le.mp hcon)
    linarith
  · intro hy
    have hs0 : 0 ≤ Real.sin (tiltError s u) :=
      Real.sin_nonneg_of_nonneg_of_le_pi (angle_nonneg _ _) (angle_le_pi _ _)
    have hc : Real.cos (tiltError s u) = dot u (toDevice s.q vertical) := cos_angle _ _ hu hup
    have hsq : (toDevice s.q vertical).y ^ 2 ≤ Real.sin (tiltError s u) ^ 2 := by
      have e := Real.sin_sq_add_cos_sq (tiltError s u)
      rw [hc] at e
      have hc2 := cauchy u (toDevice s.q vertical) hu hup
      have : Real.sin (tiltError s u) ^ 2 = dot (cross u (toDevice s.q vertical)) (cross u (toDevice s.q vertical)) := by
        rw [hc2]; linarith
      rw [this]
      generalize toDevice s.q vertical = w at *
      unfold dot at hu
      simp only [dot, cross, hy] at hu ⊢
      nlinarith [sq_nonneg (u.z * w.x - u.x * w.z)]
    have hle := abs_le_of_sq_le_sq hsq hs0
    rcases hcp0.lt_or_eq with hcp | hcp
    · have sr := sin_atan2 _ _ _ hcp e2
      rw [← hroll] at sr
      rw [hpitch, sr, abs_div, abs_of_pos hcp, mul_div_cancel₀ _ hcp.ne']
      exact hle
    · rw [hpitch, ← hcp, zero_mul]
      exact hs0

end Verif.Fusion
