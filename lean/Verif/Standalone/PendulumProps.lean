import Verif.Standalone.PendulumModel
import Verif.Standalone.CfProgProps
import Verif.Fusion.MovingProps

/-! # C114: the pendulum of the example program, for every noise -/

namespace Verif.Standalone.Cf

open Verif Verif.Pedo Verif.Fusion

/-- The upward direction seen from a device pitched by `θ`. -/
noncomputable def upAt (θ : ℝ) : Vector3d := ⟨-Real.sin θ, 0, Real.cos θ⟩

theorem upAt_unit (θ : ℝ) : dot (upAt θ) (upAt θ) = 1 := by
  simp only [dot, upAt]
  linear_combination Real.sin_sq_add_cos_sq θ

theorem upAt_rotate (θ α : ℝ) : rotateAbout ⟨0, 1, 0⟩ α (upAt θ) = upAt (θ - α) := by
  apply vec_ext <;> simp only [rotateAbout, upAt, dot, Real.sin_sub, Real.cos_sub] <;> ring

theorem upAt_near (θ θ' : ℝ) : angleBetween (upAt θ) (upAt θ') ≤ |θ - θ'| := by
  have h := (rotate_angle ⟨0, 1, 0⟩ (by norm_num [dot]) (θ' - θ) (upAt θ') (upAt_unit θ')).1
  rw [upAt_rotate, abs_sub_comm] at h
  have e : θ' - (θ' - θ) = θ := by ring
  rwa [e] at h

/-- The angle one sample before. -/
def before (θ0 : ℝ) (θ : ℕ → ℝ) : ℕ → ℝ
  | 0 => θ0
  | i + 1 => θ i

/-- What is asked of a list of samples of a device that is pitched by `θ i` at sample `i`, at 100 Hz: times that are right to less
than a millisecond, angular velocities that are the differences of the angles, angles that change by at most `η` from one
sample to the next. -/
structure Swings (θ0 η A : ℝ) (θ : ℕ → ℝ) (n : ℕ) (s : ℕ → Swing) : Prop where
  theta : ∀ i < n, (s i).theta = θ i
  time : ∀ i < n, |(s i).time - i / 100| < 1 / 1000
  vel : ∀ i < n, (s i).thetaVel = 100 * (θ i - before θ0 θ i)
  step : ∀ i < n, |θ i - before θ0 θ i| ≤ η
  size : ∀ i < n, |θ i| ≤ A

/-- The rounds of messages, with the true upward direction at each message. -/
noncomputable def swingRounds (L : ℝ) (θ : ℕ → ℝ) (na ng : ℕ → Vector3d) (s : ℕ → Swing) (n : ℕ) :
    List (SensorMeasurement × List (SensorMeasurement × Vector3d)) :=
  (List.range n).map (fun i => (toLib (swingAccel L (s i) (na i)),
    [(toLib (swingGyro (s i) (ng i)), upAt (θ i)), (toLib (swingMagn (s i)), upAt (θ i))]))

theorem swingRounds_succ (L : ℝ) (θ : ℕ → ℝ) (na ng : ℕ → Vector3d) (s : ℕ → Swing) (n : ℕ) :
    swingRounds L θ na ng s (n + 1) = swingRounds L θ na ng s n ++ [(toLib (swingAccel L (s n) (na n)),
    [(toLib (swingGyro (s n) (ng n)), upAt (θ n)), (toLib (swingMagn (s n)), upAt (θ n))])] := by
  unfold swingRounds
  rw [List.range_succ, List.map_append]
  rfl

theorem swing_messages (L : ℝ) (θ : ℕ → ℝ) (na ng : ℕ → Vector3d) (s : ℕ → Swing) (n : ℕ) :
    messages (bare (swingRounds L θ na ng s n)) =
      ((generateImuPendulum L na ng ((List.range n).map s)).flatMap (fun t => [t.1, t.2.1, t.2.2])).map toLib := by
  induction n with
  | zero => rfl
  | succ n ih =>
    rw [swingRounds_succ, bare_snoc, ih, List.range_succ, List.map_append]
    unfold generateImuPendulum
    rw [List.mapIdx_append, List.flatMap_append, List.map_append]
    simp

theorem swing_ref (L θ0 : ℝ) (θ : ℕ → ℝ) (na ng : ℕ → Vector3d) (s : ℕ → Swing) (n : ℕ) :
    refAt (upAt θ0) (swingRounds L θ na ng s n) = upAt (before θ0 θ n) := by
  cases n with
  | zero => rfl
  | succ n =>
    rw [swingRounds_succ, refAt_snoc]
    rfl

theorem swing_lastGyro (L : ℝ) (θ : ℕ → ℝ) (na ng : ℕ → Vector3d) (s : ℕ → Swing) (n : ℕ) :
    lastGyro (messages (bare (swingRounds L θ na ng s n))) = if n = 0 then none else some (swingTs (s (n - 1))) := by
  cases n with
  | zero => rfl
  | succ n =>
    rw [swingRounds_succ, bare_snoc]
    have : ∀ (l : List SensorMeasurement) (a b : SensorMeasurement), l ++ [a, b] = l ++ [a] ++ [b] := by simp
    simp only [List.map_cons, List.map_nil]
    rw [this, lastGyro_snoc, if_neg (by simp [toLib, swingMagn]), lastGyro_snoc, if_pos (by simp [toLib, swingGyro])]
    simp [toLib, swingGyro]

/-- Time stamps are right to a millisecond, and never late. -/
theorem swing_stamp (s : Swing) (i : ℕ) (h : |s.time - i / 100| < 1 / 1000) :
    swingTs s = 1583315232492 + 10 * i ∨ swingTs s = 1583315232492 + 10 * i - 1 := by
  unfold swingTs
  obtain ⟨h1, h2⟩ := abs_lt.mp h
  have l1 : (1583315232492 + 10 * (i : Int) - 1 : Int) ≤ ⌊(1583315232492 : ℝ) + 1000 * s.time⌋ := by
    rw [Int.le_floor]
    push_cast
    linarith
  have l2 : ⌊(1583315232492 : ℝ) + 1000 * s.time⌋ < (1583315232492 + 10 * (i : Int) + 1 : Int) := by
    rw [Int.floor_lt]
    push_cast
    linarith
  omega

/-- The direction of a measured acceleration. -/
theorem swing_accel (L θ v η A ρ a : ℝ) (noise : Vector3d) (hL : 0 ≤ L) (hη : 0 ≤ η) (hA : |θ| ≤ A) (hv : |v| ≤ 100 * η)
    (hn : magnitude noise ≤ a) (h0 : 0 ≤ ρ) (h1 : ρ ≤ 1 / 2) (hg : L * (100 * η) ^ 2 ≤ G / 2)
    (hρ : L * (100 * η) ^ 2 * A + a ≤ ρ * (G - L * (100 * η) ^ 2)) (t : ℝ) :
    let m := swingAccel L ⟨t, θ, v⟩ noise
    2 ≤ magnitude m.values ∧ angleBetween (upAt θ) (direction m.values) ≤ Real.arcsin ρ := by
  intro m
  have hG : G = 9.81 := rfl
  have hv2 : v ^ 2 ≤ (100 * η) ^ 2 := sq_le_sq' (by linarith [(abs_le.mp hv).1]) (abs_le.mp hv).2
  have hLv : L * v ^ 2 ≤ L * (100 * η) ^ 2 := mul_le_mul_of_nonneg_left hv2 hL
  have hLv0 : 0 ≤ L * v ^ 2 := mul_nonneg hL (sq_nonneg v)
  have hc1 := Real.cos_le_one θ
  have hc2 := Real.neg_one_le_cos θ
  set g := G - L * v ^ 2 * Real.cos θ with hgdef
  have hgl : G - L * (100 * η) ^ 2 ≤ g := by
    have : L * v ^ 2 * Real.cos θ ≤ L * v ^ 2 * 1 := mul_le_mul_of_nonneg_left hc1 hLv0
    rw [hgdef]; linarith
  have hgp : 0 < g := by rw [hG] at hg hgl; linarith
  have hres : magnitude ⟨m.values.x - g * (upAt θ).x, m.values.y - g * (upAt θ).y, m.values.z - g * (upAt θ).z⟩ ≤ ρ * g := by
    have tri : ∀ p q : Vector3d, magnitude ⟨p.x + q.x, p.y + q.y, p.z + q.z⟩ ≤ magnitude p + magnitude q := by
      intro p q
      have hp := magnitude_nonneg p
      have hq := magnitude_nonneg q
      have h3 := magnitude_nonneg ⟨p.x + q.x, p.y + q.y, p.z + q.z⟩
      apply abs_le_of_sq_le_sq' _ (by linarith) |>.2
      have e1 := magnitude_sq p
      have e2 := magnitude_sq q
      have e3 := magnitude_sq ⟨p.x + q.x, p.y + q.y, p.z + q.z⟩
      have hcs : dot p q ≤ magnitude p * magnitude q := by
        obtain ⟨n1, hn1, hp'⟩ := exists_axis p
        obtain ⟨n2, hn2, hq'⟩ := exists_axis q
        have e : dot p q = magnitude p * magnitude q * dot n1 n2 := by
          conv_lhs => rw [hp', hq']
          simp only [dot]; ring
        rw [e]
        exact mul_le_of_le_one_right (mul_nonneg hp hq) (dot_range n1 n2 hn1 hn2).2
      have e4 : dot (⟨p.x + q.x, p.y + q.y, p.z + q.z⟩ : Vector3d) ⟨p.x + q.x, p.y + q.y, p.z + q.z⟩ =
          dot p p + 2 * dot p q + dot q q := by simp only [dot]; ring
      rw [e3, e4, add_sq, e1, e2]
      linarith
    set p : Vector3d := ⟨-(L * v ^ 2 * Real.cos θ * Real.sin θ), 0, -(L * v ^ 2 * Real.sin θ ^ 2)⟩ with hp
    have e : (⟨m.values.x - g * (upAt θ).x, m.values.y - g * (upAt θ).y, m.values.z - g * (upAt θ).z⟩ : Vector3d) =
        ⟨p.x + noise.x, p.y + noise.y, p.z + noise.z⟩ := by
      have hs := Real.sin_sq_add_cos_sq θ
      apply vec_ext
      · change -G * Real.sin θ + noise.x - g * (-Real.sin θ) = -(L * v ^ 2 * Real.cos θ * Real.sin θ) + noise.x
        rw [hgdef]; ring
      · change 0.0 + noise.y - g * 0 = 0 + noise.y
        norm_num
      · change -L * v ^ 2 + G * Real.cos θ + noise.z - g * Real.cos θ = -(L * v ^ 2 * Real.sin θ ^ 2) + noise.z
        rw [hgdef]
        linear_combination (L * v ^ 2) * hs
    rw [e]
    refine (tri p noise).trans ?_
    have hpm : magnitude p ≤ L * v ^ 2 * A := by
      have hA0 : 0 ≤ A := (abs_nonneg θ).trans hA
      have hs : |Real.sin θ| ≤ A := (Real.abs_sin_le_abs).trans hA
      apply abs_le_of_sq_le_sq' _ (by positivity) |>.2
      rw [magnitude_sq, hp]
      have e2 : dot (⟨-(L * v ^ 2 * Real.cos θ * Real.sin θ), 0, -(L * v ^ 2 * Real.sin θ ^ 2)⟩ : Vector3d)
          ⟨-(L * v ^ 2 * Real.cos θ * Real.sin θ), 0, -(L * v ^ 2 * Real.sin θ ^ 2)⟩ = (L * v ^ 2) ^ 2 * Real.sin θ ^ 2 := by
        have hs := Real.sin_sq_add_cos_sq θ
        simp only [dot]
        linear_combination ((L * v ^ 2) ^ 2 * Real.sin θ ^ 2) * hs
      rw [e2, mul_pow (L * v ^ 2) A]
      have : Real.sin θ ^ 2 ≤ A ^ 2 := sq_le_sq' (by linarith [(abs_le.mp hs).1]) (abs_le.mp hs).2
      exact mul_le_mul_of_nonneg_left this (sq_nonneg _)
    have h3 : L * v ^ 2 * A ≤ L * (100 * η) ^ 2 * A := mul_le_mul_of_nonneg_right hLv ((abs_nonneg θ).trans hA)
    have h4 := mul_le_mul_of_nonneg_left hgl h0
    linarith
  obtain ⟨r1, r2⟩ := C110_noise (upAt θ) m.values (upAt_unit θ) g ρ hgp h0 (by linarith) hres
  refine ⟨?_, r2⟩
  refine le_trans ?_ r1
  rw [hG] at hg hgl
  nlinarith

theorem swing_moving (L θ0 η A ρ a w : ℝ) (θ : ℕ → ℝ) (na ng : ℕ → Vector3d) (n : ℕ) (s : ℕ → Swing)
    (hs : Swings θ0 η A θ n s) (hL : 0 ≤ L) (hη : 0 ≤ η) (hw : 0 ≤ w) (h0 : 0 ≤ ρ) (h1 : ρ ≤ 1 / 2)
    (hg : L * (100 * η) ^ 2 ≤ G / 2) (hρ : L * (100 * η) ^ 2 * A + a ≤ ρ * (G - L * (100 * η) ^ 2))
    (hna : ∀ i < n, magnitude (na i) ≤ a) (hng : ∀ i < n, magnitude (ng i) ≤ w)
    (hfirst : ∀ i < n, i = 0 → θ i = θ0) :
    MovingRounds (upAt θ0) (η + Real.arcsin ρ) (11 / 1000 * w + η / 10 + η ^ 3 / 12) [] (swingRounds L θ na ng s n) := by
  have hround : ∀ r ∈ swingRounds L θ na ng s n, ∃ i < n, r = (toLib (swingAccel L (s i) (na i)),
      [(toLib (swingGyro (s i) (ng i)), upAt (θ i)), (toLib (swingMagn (s i)), upAt (θ i))]) := by
    intro r hr
    simp only [swingRounds, List.mem_map, List.mem_range] at hr
    obtain ⟨i, hi, rfl⟩ := hr
    exact ⟨i, hi, rfl⟩
  have hsplit : ∀ b r c, swingRounds L θ na ng s n = b ++ r :: c → b = swingRounds L θ na ng s b.length ∧ b.length < n ∧
      r = (toLib (swingAccel L (s b.length) (na b.length)),
      [(toLib (swingGyro (s b.length) (ng b.length)), upAt (θ b.length)), (toLib (swingMagn (s b.length)), upAt (θ b.length))]) := by
    intro b r c e
    have hlen : b.length < n := by
      have := congrArg List.length e
      simp only [swingRounds, List.length_map, List.length_range, List.length_append, List.length_cons] at this
      omega
    refine ⟨?_, hlen, ?_⟩
    · have := congrArg (List.take b.length) e
      rw [List.take_left] at this
      rw [← this]
      unfold swingRounds
      rw [← List.map_take, List.take_range, Nat.min_eq_left hlen.le]
      simp
    · have h1 : (swingRounds L θ na ng s n)[b.length]? = some r := by rw [e]; simp
      unfold swingRounds at h1
      rw [List.getElem?_map, List.getElem?_range hlen] at h1
      simp only [Option.map_some, Option.some.injEq] at h1
      exact h1.symm
  refine ⟨⟨upAt_unit _, ?_⟩, ?_, ?_, ?_, ?_, ?_⟩
  · intro r hr m hm
    obtain ⟨i, hi, rfl⟩ := hround r hr
    simp only [List.mem_cons, List.not_mem_nil, or_false] at hm
    rcases hm with rfl | rfl <;> exact upAt_unit _
  · intro b r c e
    obtain ⟨hb, hlt, rfl⟩ := hsplit b r c e
    have hst := hs.step _ hlt
    have hvel : |(s b.length).thetaVel| ≤ 100 * η := by
      rw [hs.vel _ hlt, abs_mul, abs_of_pos (by norm_num : (0 : ℝ) < 100)]
      linarith
    have hacc := swing_accel L (θ b.length) (s b.length).thetaVel η A ρ a (na b.length) hL hη (hs.size _ hlt) hvel
      (hna _ hlt) h0 h1 hg hρ (s b.length).time
    have e2 : (⟨(s b.length).time, θ b.length, (s b.length).thetaVel⟩ : Swing) = s b.length := by
      rw [← hs.theta _ hlt]
    rw [e2] at hacc
    refine ⟨rfl, ?_, ?_⟩
    · refine lt_of_lt_of_le ?_ hacc.1
      norm_num [EPSILON]
    · have e3 : refAt (upAt θ0) b = upAt (before θ0 θ b.length) := by
        conv_lhs => rw [hb]
        exact swing_ref L θ0 θ na ng s b.length
      rw [e3]
      have h2 := upAt_near (before θ0 θ b.length) (θ b.length)
      rw [abs_sub_comm] at h2
      have hu : dot (direction (swingAccel L (s b.length) (na b.length)).values)
          (direction (swingAccel L (s b.length) (na b.length)).values) = 1 :=
        direction_unit _ (lt_of_lt_of_le (by norm_num [EPSILON]) hacc.1)
      have h3 := angle_tri (upAt (before θ0 θ b.length)) (upAt (θ b.length)) _ (upAt_unit _) (upAt_unit _) hu
      have h4 := hacc.2
      change angleBetween _ (direction (swingAccel L (s b.length) (na b.length)).values) ≤ _
      linarith
  · intro r hr m hm
    obtain ⟨i, hi, rfl⟩ := hround r hr
    simp only [List.mem_cons, List.not_mem_nil, or_false] at hm
    rcases hm with rfl | rfl <;> simp [toLib, swingGyro, swingMagn]
  · intro b r c e
    obtain ⟨hb, hlt, rfl⟩ := hsplit b r c e
    have e3 : refAt (upAt θ0) b = upAt (before θ0 θ b.length) := by
      conv_lhs => rw [hb]
      exact swing_ref L θ0 θ na ng s b.length
    rw [e3, List.nil_append]
    have e4 : lastGyro (messages (bare b)) = if b.length = 0 then none else some (swingTs (s (b.length - 1))) := by
      conv_lhs => rw [hb]
      exact swing_lastGyro L θ na ng s b.length
    rw [e4]
    have hst := hs.step _ hlt
    have hvel := hs.vel _ hlt
    have hng' := hng _ hlt
    simp only [missed, toLib, swingGyro, swingMagn, if_true, reduceCtorEq, if_false, add_zero]
    have hself : angleBetween (upAt (θ b.length)) (upAt (θ b.length)) = 0 := by
      have := upAt_near (θ b.length) (θ b.length)
      rw [sub_self, abs_zero] at this
      exact le_antisymm this (angle_nonneg _ _)
    rw [hself, add_zero]
    by_cases hz : b.length = 0
    · rw [if_pos hz]
      simp only [Option.getD_none, sub_self]
      have hth : θ b.length = θ0 := hfirst _ hlt hz
      have hbf : before θ0 θ b.length = θ0 := by rw [hz]; rfl
      have e5 : ∀ x v, turned x 0 v = v := by
        intro x v
        unfold turned
        have : turn (magnitude x) 0 = 0 := by simp [turn]
        rw [this, rotate_zero]
      rw [e5, hth, hbf]
      have := upAt_near θ0 θ0
      rw [sub_self, abs_zero] at this
      refine this.trans ?_
      positivity
    · rw [if_neg hz]
      simp only [Option.getD_some]
      obtain ⟨k, hk⟩ := Nat.exists_eq_succ_of_ne_zero hz
      have t1 := swing_stamp (s b.length) b.length (hs.time _ hlt)
      have t0 := swing_stamp (s (b.length - 1)) (b.length - 1 : ℕ) (hs.time _ (by omega))
      have hd : swingTs (s b.length) - swingTs (s (b.length - 1)) = 9 ∨ swingTs (s b.length) - swingTs (s (b.length - 1)) = 10 ∨
          swingTs (s b.length) - swingTs (s (b.length - 1)) = 11 := by
        push_cast at t0 t1
        omega
      generalize swingTs (s b.length) - swingTs (s (b.length - 1)) = d at hd ⊢
      set Δ := θ b.length - before θ0 θ b.length with hΔ
      have hdr : (9 : ℝ) ≤ d ∧ (d : ℝ) ≤ 11 ∧ |(d : ℝ) / 10 - 1| ≤ 1 / 10 := by
        rcases hd with rfl | rfl | rfl <;> norm_num [abs_le]
      have hd0 : (0 : ℝ) < d := by linarith [hdr.1]
      have hrot : upAt (before θ0 θ b.length) = rotateAbout ⟨0, 1, 0⟩ (1000 * Δ / d * (d / 1000)) (upAt (θ b.length)) := by
        rw [upAt_rotate]
        congr 1
        rw [hΔ]
        field_simp
        ring
      have hsum := C114_rates ⟨0.0 + (ng b.length).x, (s b.length).thetaVel + (ng b.length).y, 0.0 + (ng b.length).z⟩
        ⟨0, 1, 0⟩ (upAt (before θ0 θ b.length)) (upAt (θ b.length)) (1000 * Δ / d)
        (w + |(s b.length).thetaVel - 1000 * Δ / d|) d (by norm_num [dot]) (upAt_unit _) hrot (by
          dsimp only
          have hq : (⟨0.0 + (ng b.length).x - 1000 * Δ / d * 0, (s b.length).thetaVel + (ng b.length).y - 1000 * Δ / d * 1,
              0.0 + (ng b.length).z - 1000 * Δ / d * 0⟩ : Vector3d) =
              ⟨(ng b.length).x + 0, (ng b.length).y + ((s b.length).thetaVel - 1000 * Δ / d), (ng b.length).z + 0⟩ := by
            apply vec_ext <;> dsimp only
            · norm_num
            · ring
            · norm_num
          rw [hq]
          generalize (s b.length).thetaVel - 1000 * Δ / d = y
          generalize ng b.length = p at hng' ⊢
          have hp := magnitude_nonneg p
          have e1 := magnitude_sq p
          have e3 := magnitude_sq ⟨p.x + 0, p.y + y, p.z + 0⟩
          have hy := abs_nonneg y
          apply abs_le_of_sq_le_sq' _ (by linarith) |>.2
          have hpy : |p.y| ≤ magnitude p := by
            apply abs_le_of_sq_le_sq _ hp
            rw [e1]
            simp only [dot]
            nlinarith [sq_nonneg p.x, sq_nonneg p.z]
          have h5 : p.y * y ≤ magnitude p * |y| := by
            calc p.y * y ≤ |p.y * y| := le_abs_self _
              _ = |p.y| * |y| := abs_mul _ _
              _ ≤ _ := mul_le_mul_of_nonneg_right hpy hy
          have h6 : (magnitude p + |y|) ^ 2 ≤ (w + |y|) ^ 2 := pow_le_pow_left₀ (by linarith) (by linarith) 2
          refine le_trans ?_ h6
          rw [e3, add_sq, sq_abs, e1]
          simp only [dot]
          linarith)
      refine hsum.trans ?_
      have e6 : 1000 * Δ / d * (d / 1000) = Δ := by field_simp
      rw [e6, abs_of_pos hd0]
      have e7 : |(s b.length).thetaVel - 1000 * Δ / d| * ((d : ℝ) / 1000) = |Δ| * |(d : ℝ) / 10 - 1| := by
        rw [← abs_mul]
        conv_lhs => rw [← abs_of_pos (show (0 : ℝ) < d / 1000 by positivity)]
        rw [← abs_mul, hvel]
        congr 1
        field_simp
        ring
      rw [add_mul, e7]
      have h7 : |Δ| * |(d : ℝ) / 10 - 1| ≤ η * (1 / 10) := mul_le_mul hst hdr.2.2 (abs_nonneg _) hη
      have h8 : |Δ| ^ 3 ≤ η ^ 3 := pow_le_pow_left₀ (abs_nonneg _) hst 3
      have h9 : w * ((d : ℝ) / 1000) ≤ w * (11 / 1000) := mul_le_mul_of_nonneg_left (by linarith [hdr.2.1]) hw
      linarith
  · intro m hm _
    rw [List.nil_append, swing_messages] at hm
    simp only [generateImuPendulum, List.mem_map, List.mem_flatMap, List.mem_mapIdx, List.length_map, List.length_range] at hm
    obtain ⟨x, ⟨y, ⟨i, hi, rfl⟩, hx⟩, rfl⟩ := hm
    have hst := swing_stamp (s i) i (hs.time i hi)
    have hts : (toLib x).ts = swingTs (s i) := by
      simp only [List.getElem_map, List.getElem_range, List.mem_cons, List.not_mem_nil, or_false] at hx
      rcases hx with rfl | rfl | rfl <;> rfl
    rw [hts]
    omega
  · intro p m r e hm
    rw [List.nil_append]
    cases n with
    | zero => simp [messages, bare, swingRounds] at e
    | succ n =>
      have hlist : ∃ l, messages (bare (swingRounds L θ na ng s (n + 1))) =
          toLib (swingAccel L (s 0) (na 0)) :: toLib (swingGyro (s 0) (ng 0)) :: l := by
        unfold messages bare swingRounds
        rw [List.range_succ_eq_map]
        exact ⟨_, rfl⟩
      obtain ⟨l, hl⟩ := hlist
      rw [hl] at e
      match p, e with
      | [], e =>
        simp only [List.nil_append, List.cons.injEq] at e
        rw [← e.1] at hm
        simp [toLib, swingAccel] at hm
      | [x], e =>
        simp only [List.cons_append, List.nil_append, List.cons.injEq] at e
        rw [← e.2.1] at hm
        simp [toLib, swingGyro] at hm
      | x :: y :: p, e =>
        simp only [List.cons_append, List.cons.injEq] at e
        exact ⟨y, by simp, by rw [← e.2.1]; rfl⟩

/-- **C114.** A device that swings about its y axis, whatever the noise: samples at 100 Hz in the order accelerometer, gyroscope,
magnetometer, times right to a millisecond, the angle `θ` changing by at most `η` between samples, a centripetal part in the
accelerometer as in the example, noises of at most `a` and `w`. The pitch answered after sample `i` is off the true one, `θ i`, by at
most `(11/12)^(i+1) |θ0| + η + arcsin ρ + 12 (0.011 w + η/10 + η³/12)`; `ρ` is the relative error of the acceleration, apart
from the delay. -/
theorem C114_swing (j1 j2 : SensorType) (L θ0 η A ρ a w : ℝ) (θ : ℕ → ℝ) (na ng : ℕ → Vector3d) (n : ℕ) (s : ℕ → Swing)
    (hs : Swings θ0 η A θ n s) (hA : A ≤ Real.pi / 2) (hL : 0 ≤ L) (hη : 0 ≤ η) (hw : 0 ≤ w) (h0 : 0 ≤ ρ) (h1 : ρ ≤ 1 / 2)
    (hg : L * (100 * η) ^ 2 ≤ G / 2) (hρ : L * (100 * η) ^ 2 * A + a ≤ ρ * (G - L * (100 * η) ^ 2))
    (hna : ∀ i < n, magnitude (na i) ≤ a) (hng : ∀ i < n, magnitude (ng i) ≤ w)
    (hfirst : θ 0 = θ0) (hstart : |θ0| + (η + Real.arcsin ρ) ≤ 1 / 2)
    (hsmall : 2 * (η + Real.arcsin ρ) + 12 * (11 / 1000 * w + η / 10 + η ^ 3 / 12) ≤ 1 / 2)
    (i : ℕ) (o : Orientation)
    (h : (orientationLoop (init j1 j2) (generateImuPendulum L na ng ((List.range n).map s)))[i]? = some o) :
    |o.pitch - θ i| ≤ (11 / 12) ^ (i + 1) * |θ0| + ((η + Real.arcsin ρ) + 12 * (11 / 1000 * w + η / 10 + η ^ 3 / 12)) := by
  have hpi := Real.pi_gt_three
  have hρ0 : 0 ≤ Real.arcsin ρ := Real.arcsin_nonneg.mpr h0
  obtain ⟨e, hi⟩ := loop_run j1 j2 (generateImuPendulum L na ng ((List.range n).map s)) [] i o h
  have hin : i < n := by simpa [generateImuPendulum] using hi
  have htake : (generateImuPendulum L na ng ((List.range n).map s)).take (i + 1) =
      generateImuPendulum L na ng ((List.range (i + 1)).map s) := by
    apply List.ext_getElem
    · simp [generateImuPendulum]; omega
    · intro k hk1 hk2
      simp [generateImuPendulum]
  rw [List.nil_append, htake] at e
  have es := (C103_same defaultGains 0 j1 j2 (j1, -1) (j2, -1)
    ((generateImuPendulum L na ng ((List.range (i + 1)).map s)).flatMap (fun t => [t.1, t.2.1, t.2.2]))).1
  rw [es, ← swing_messages L θ] at e
  have hs' : Swings θ0 η A θ (i + 1) s :=
    ⟨fun k hk => hs.theta k (by omega), fun k hk => hs.time k (by omega), fun k hk => hs.vel k (by omega),
      fun k hk => hs.step k (by omega), fun k hk => hs.size k (by omega)⟩
  have hr := swing_moving L θ0 η A ρ a w θ na ng (i + 1) s hs' hL hη hw h0 h1 hg hρ (fun k hk => hna k (by omega))
    (fun k hk => hng k (by omega)) (fun k _ hk => by rw [hk, hfirst])
  have hε : 0 ≤ 11 / 1000 * w + η / 10 + η ^ 3 / 12 := by positivity
  have hst := start_error ⟨defaultGains.ka, defaultGains.km, defaultGains.ki, 0⟩ (j1, -1) (j2, -1) θ0 (by linarith)
  have hka : defaultGains.ka = 1 / 10 := by norm_num [defaultGains]
  have e2 : 6 * (11 / 1000 * w + η / 10 + η ^ 3 / 12) / (5 * (1 / 10 : ℝ)) = 12 * (11 / 1000 * w + η / 10 + η ^ 3 / 12) := by ring
  have hb := C114_small ⟨defaultGains.ka, defaultGains.km, defaultGains.ki, 0⟩ (by rw [hka]; norm_num) (by rw [hka]; norm_num)
    (by norm_num [defaultGains, CF_DOUBLE_EPSILON]) (j1, -1) (j2, -1) (upAt θ0) (η + Real.arcsin ρ)
    (11 / 1000 * w + η / 10 + η ^ 3 / 12) (by linarith) hε
    (by rw [hka, e2]; exact hsmall) [] (by unfold upAt; rw [hst]; exact hstart) _ hr
  unfold upAt at hb
  rw [hst, List.nil_append, hka] at hb
  change tiltError _ (refAt (upAt θ0) _) ≤ _ at hb
  have hlen : (swingRounds L θ na ng s (i + 1)).length = i + 1 := by simp [swingRounds]
  rw [hlen, swing_ref] at hb
  have e1 : (1 - 5 * (1 / 10 : ℝ) / 6) = 11 / 12 := by norm_num
  rw [e1, e2] at hb
  obtain ⟨p1, -, -⟩ := C110_angles ⟨defaultGains.ka, defaultGains.km, defaultGains.ki, 0⟩ (j1, -1) (j2, -1)
    (messages (bare (swingRounds L θ na ng s (i + 1)))) (upAt (θ i)) (upAt_unit _)
  rw [← hka] at hb
  rw [← e] at p1
  have hA := (hs.size i hin).trans hA
  have hpt : pitchOf (upAt (θ i)) = θ i := by
    unfold pitchOf upAt
    simp only [neg_neg]
    obtain ⟨a1, a2⟩ := abs_le.mp hA
    exact Real.arcsin_sin a1 a2
  rw [hpt] at p1
  exact p1.trans hb

/-! ## The program -/

/-- The angle of the pendulum at sample `i`: held at `θ0` for `nS` samples, then the swing of small oscillations. -/
noncomputable def pendulumAngle (L θ0 : ℝ) (nS : ℕ) (i : ℕ) : ℝ :=
  if i < nS then θ0 else θ0 * Real.cos (Real.sqrt (G / L) * (i / 100))

/-- The samples of the simulation. -/
noncomputable def pendulumSample (L θ0 : ℝ) (nS : ℕ) (i : ℕ) : Swing :=
  ⟨i / 100, pendulumAngle L θ0 nS i, 100 * (pendulumAngle L θ0 nS i - before θ0 (pendulumAngle L θ0 nS) i)⟩

theorem static_eq (tick θ0 : ℝ) (n : ℕ) (t : ℝ) :
    staticLoop tick θ0 n t = ((List.range n).map (fun i : ℕ => ⟨t + i * tick, θ0, 0⟩), t + n * tick) := by
  induction n generalizing t with
  | zero => simp [staticLoop]
  | succ n ih =>
    rw [staticLoop, ih, List.range_succ_eq_map, List.map_cons, List.map_map]
    dsimp only
    refine Prod.ext ?_ ?_
    · dsimp only
      congr 1
      · simp
      · apply List.map_congr_left
        intro i _
        simp only [Function.comp]
        congr 1
        push_cast
        ring
    · dsimp only
      push_cast
      ring

theorem dynamic_eq (tick L θ0 : ℝ) (n : ℕ) (t prev : ℝ) :
    dynamicLoop tick L θ0 n t prev = (List.range n).map (fun i : ℕ => ⟨t + i * tick,
      θ0 * Real.cos (root (G ÷ L) * (t + i * tick)), (θ0 * Real.cos (root (G ÷ L) * (t + i * tick)) -
        before prev (fun k => θ0 * Real.cos (root (G ÷ L) * (t + k * tick))) i) ÷ tick⟩) := by
  induction n generalizing t prev with
  | zero => rfl
  | succ n ih =>
    rw [dynamicLoop, ih, List.range_succ_eq_map, List.map_cons, List.map_map]
    congr 1
    · simp [before]
    · apply List.map_congr_left
      intro i _
      simp only [Function.comp]
      have e : ∀ k : ℕ, t + tick + (k : ℝ) * tick = t + ((k + 1 : ℕ) : ℝ) * tick := by intro k; push_cast; ring
      have hb : before (θ0 * Real.cos (root (G ÷ L) * t)) (fun k : ℕ => θ0 * Real.cos (root (G ÷ L) * (t + tick + k * tick))) i =
          before prev (fun k : ℕ => θ0 * Real.cos (root (G ÷ L) * (t + k * tick))) i.succ := by
        cases i with
        | zero => simp [before]
        | succ i => simp only [before]; rw [e]
      rw [hb, e]

theorem simulate_eq (L θ0 : ℝ) (hL : 0 < L) (dS dD : ℝ) :
    simulatePendulumMotion dS dD 100 L θ0 =
      (List.range (⌈dS * 100⌉₊ + ⌈dD * 100⌉₊)).map (pendulumSample L θ0 ⌈dS * 100⌉₊) := by
  have ht : (1.0 : ℝ) ÷ 100 = 1 / 100 := by rw [divide_pos (by norm_num)]; norm_num
  have hdiv : ∀ x : ℝ, x ÷ (1 / 100) = x * 100 := by
    intro x
    rw [divide_pos (by norm_num)]
    ring
  unfold simulatePendulumMotion
  rw [ht]
  dsimp only
  rw [hdiv, hdiv, static_eq]
  dsimp only
  rw [dynamic_eq, List.range_add, List.map_append, List.map_map]
  generalize ⌈dS * 100⌉₊ = nS
  generalize ⌈dD * 100⌉₊ = nD
  have hG : 0 < G := by norm_num [G]
  have hroot : root (G ÷ L) = Real.sqrt (G / L) := by
    rw [divide_pos hL, root_eq (by positivity)]
  rw [hroot]
  congr 1
  · apply List.map_congr_left
    intro i hi
    rw [List.mem_range] at hi
    unfold pendulumSample
    have h1 : pendulumAngle L θ0 nS i = θ0 := if_pos hi
    have h2 : before θ0 (pendulumAngle L θ0 nS) i = θ0 := by
      cases i with
      | zero => rfl
      | succ i => exact if_pos (by omega)
    rw [h1, h2]
    congr 1 <;> ring
  · apply List.map_congr_left
    intro i _
    simp only [Function.comp]
    unfold pendulumSample
    have e : ∀ k : ℕ, (0 : ℝ) + nS * (1 / 100) + k * (1 / 100) = ((nS + k : ℕ) : ℝ) / 100 := by intro k; push_cast; ring
    have h1 : ∀ k, pendulumAngle L θ0 nS (nS + k) = θ0 * Real.cos (Real.sqrt (G / L) * (((nS + k : ℕ) : ℝ) / 100)) :=
      fun k => if_neg (by omega)
    have h2 : before θ0 (fun k : ℕ => θ0 * Real.cos (Real.sqrt (G / L) * (0 + nS * (1 / 100) + k * (1 / 100)))) i =
        before θ0 (pendulumAngle L θ0 nS) (nS + i) := by
      cases i with
      | zero =>
        cases nS with
        | zero => rfl
        | succ n => exact (if_pos (by omega)).symm
      | succ i =>
        simp only [before]
        rw [e, ← h1]
        rfl
    rw [h2, e, h1, hdiv]
    congr 1
    ring

theorem pendulum_swings (L θ0 η : ℝ) (nS n : ℕ) (hη : 0 ≤ η) (hstep : |θ0| * Real.sqrt (G / L) / 100 ≤ η)
    (hjump : |θ0| * (1 - Real.cos (Real.sqrt (G / L) * (nS / 100))) ≤ η) :
    Swings θ0 η |θ0| (pendulumAngle L θ0 nS) n (pendulumSample L θ0 nS) ∧ pendulumAngle L θ0 nS 0 = θ0 := by
  have hsize : ∀ i, |pendulumAngle L θ0 nS i| ≤ |θ0| := by
    intro i
    unfold pendulumAngle
    split_ifs
    · exact le_refl _
    · rw [abs_mul]
      exact mul_le_of_le_one_right (abs_nonneg _) (Real.abs_cos_le_one _)
  have hzero : pendulumAngle L θ0 nS 0 = θ0 := by
    unfold pendulumAngle
    split_ifs
    · rfl
    · simp
  refine ⟨⟨fun i _ => rfl, fun i _ => ?_, fun i _ => rfl, fun i _ => ?_, fun i _ => hsize i⟩, hzero⟩
  · simp [pendulumSample]
  · cases i with
    | zero =>
      rw [hzero]
      simp only [before, sub_self, abs_zero]
      exact hη
    | succ i =>
      simp only [before]
      by_cases h1 : i + 1 < nS
      · have : pendulumAngle L θ0 nS (i + 1) = θ0 := if_pos h1
        rw [this]
        have : pendulumAngle L θ0 nS i = θ0 := if_pos (by omega)
        rw [this, sub_self, abs_zero]
        exact hη
      · have e1 : pendulumAngle L θ0 nS (i + 1) = θ0 * Real.cos (Real.sqrt (G / L) * ((i + 1 : ℕ) / 100)) := if_neg h1
        by_cases h2 : i < nS
        · have e2 : pendulumAngle L θ0 nS i = θ0 := if_pos h2
          have e3 : i + 1 = nS := by omega
          rw [e1, e2, e3]
          have e4 : θ0 * Real.cos (Real.sqrt (G / L) * ((nS : ℝ) / 100)) - θ0 =
              -(θ0 * (1 - Real.cos (Real.sqrt (G / L) * (nS / 100)))) := by ring
          rw [e4, abs_neg, abs_mul, abs_of_nonneg (sub_nonneg.mpr (Real.cos_le_one (Real.sqrt (G / L) * (nS / 100))))]
          exact hjump
        · have e2 : pendulumAngle L θ0 nS i = θ0 * Real.cos (Real.sqrt (G / L) * (i / 100)) := if_neg h2
          rw [e1, e2, ← mul_sub, abs_mul]
          have hc : |Real.cos (Real.sqrt (G / L) * ((i + 1 : ℕ) / 100)) - Real.cos (Real.sqrt (G / L) * (i / 100))| ≤
              Real.sqrt (G / L) / 100 := by
            refine (Real.abs_cos_sub_cos_le _ _).trans ?_
            have : Real.sqrt (G / L) * ((i + 1 : ℕ) / 100) - Real.sqrt (G / L) * (i / 100) = Real.sqrt (G / L) / 100 := by
              push_cast; ring
            rw [this, abs_of_nonneg (by positivity)]
          have := mul_le_mul_of_nonneg_left hc (abs_nonneg θ0)
          linarith

theorem files_lines (j1 j2 : SensorType) (na ng : ℕ → Vector3d) (n : ℕ) (s : ℕ → Swing) :
    let f := pendulumFiles j1 j2 na ng ((List.range n).map s)
    f.1.length = n ∧ f.2.length = n ∧
    ∀ (i : ℕ) (simulated : SimulationLine) (calculated : AnglesLine), f.1[i]? = some simulated → f.2[i]? = some calculated →
      i < n ∧ simulated.ts = swingTs (s i) ∧ calculated.ts = simulated.ts ∧ simulated.theta = (s i).theta ∧
      ∃ o, (orientationLoop (init j1 j2) (generateImuPendulum 1 na ng ((List.range n).map s)))[i]? = some o ∧
        calculated.pitch = o.pitch := by
  intro f
  have hf : f = pendulumFiles j1 j2 na ng ((List.range n).map s) := rfl
  clear_value f
  unfold pendulumFiles at hf
  set l := generateImuPendulum 1 na ng ((List.range n).map s) with hl
  have hlen : l.length = n := by rw [hl]; simp [generateImuPendulum]
  rw [hf]
  refine ⟨by simp [hlen], by simp [hlen, loop_length], ?_⟩
  intro i x y hx hy
  dsimp only at hx hy
  rw [List.getElem?_zipWith] at hx hy
  have hi : i < n := by
    by_contra hcon
    have : l[i]? = none := List.getElem?_eq_none (by omega)
    rw [this] at hy
    simp at hy
  have hli : l[i]? = some (swingAccel 1 (s i) (na i), swingGyro (s i) (ng i), swingMagn (s i)) := by
    rw [hl]
    simp [generateImuPendulum, hi]
  have hri : ((List.range n).map s)[i]? = some (s i) := by
    rw [List.getElem?_map, List.getElem?_range hi]
    rfl
  rw [hli, hri] at hx
  simp only [Option.some.injEq] at hx
  rw [hli] at hy
  cases ho : (orientationLoop (init j1 j2) l)[i]? with
  | none => rw [ho] at hy; simp at hy
  | some o =>
    rw [ho] at hy
    simp only [Option.some.injEq] at hy
    rw [← hx, ← hy]
    exact ⟨hi, rfl, rfl, rfl, o, rfl, rfl⟩

/-- **C114.** The example program: for every accelerometer noise of at most 0.1 m/s² and every gyroscope noise of at most 0.01 rad/s
(its bias of 0.005 rad/s on each axis included) both files have 2000 lines, line `i` of both has the same time stamp and the
angle of the simulated pendulum, and from the 41st line on the calculated pitch is within one degree of it. -/
theorem C114_program (j1 j2 : SensorType) (na ng : ℕ → Vector3d)
    (ha : ∀ i < 2000, magnitude (na i) ≤ 0.1) (hg : ∀ i < 2000, magnitude (ng i) ≤ 0.01) :
    (pendulumMain j1 j2 na ng).1.length = 2000 ∧ (pendulumMain j1 j2 na ng).2.length = 2000 ∧
    ∀ (i : ℕ) (simulated : SimulationLine) (calculated : AnglesLine), (pendulumMain j1 j2 na ng).1[i]? = some simulated →
      (pendulumMain j1 j2 na ng).2[i]? = some calculated →
      simulated.ts = 1583315232492 + 10 * i ∧ calculated.ts = simulated.ts ∧
      simulated.theta = (if i < 1000 then Real.pi / 60 else Real.pi / 60 * Real.cos (Real.sqrt 9.81 * (i / 100))) ∧
      (40 ≤ i → |calculated.pitch - simulated.theta| < Real.pi / 180) := by
  have hsim : simulatePendulumMotion 10 10 100 1.0 (Real.pi / 60.0) =
      (List.range 2000).map (pendulumSample 1 (Real.pi / 60) 1000) := by
    have h1 := simulate_eq 1 (Real.pi / 60) (by norm_num) 10 10
    have h2 : ⌈(10 : ℝ) * 100⌉₊ = 1000 := by
      have : (10 : ℝ) * 100 = ((1000 : ℕ) : ℝ) := by norm_num
      rw [this, Nat.ceil_natCast]
    rw [h2] at h1
    have h3 : (1.0 : ℝ) = 1 := by norm_num
    have h4 : Real.pi / 60.0 = Real.pi / 60 := by norm_num
    rw [h3, h4, h1]
  have hG : G = 9.81 := rfl
  have hpi1 := Real.pi_gt_d4
  have hpi2 := Real.pi_lt_d4
  have hsq1 : (3.132 : ℝ) ≤ Real.sqrt 9.81 := Real.le_sqrt_of_sq_le (by norm_num)
  have hsq2 : Real.sqrt 9.81 ≤ 3.1321 := by rw [Real.sqrt_le_iff]; norm_num
  have hGL : G / 1 = 9.81 := by rw [hG, div_one]
  have hθ : |Real.pi / 60| = Real.pi / 60 := abs_of_pos (by positivity)
  obtain ⟨hsw, hfirst⟩ := pendulum_swings 1 (Real.pi / 60) 0.00165 1000 2000 (by norm_num)
    (by
      rw [hθ, hGL]
      have : Real.pi / 60 * Real.sqrt 9.81 ≤ 3.1416 / 60 * 3.1321 :=
        mul_le_mul (by linarith) hsq2 (Real.sqrt_nonneg _) (by norm_num)
      norm_num at this ⊢
      linarith)
    (by
      rw [hθ, hGL]
      have e : Real.cos (Real.sqrt 9.81 * (((1000 : ℕ) : ℝ) / 100)) = Real.cos (Real.sqrt 9.81 * 10 - 10 * Real.pi) := by
        have h1 : Real.sqrt 9.81 * (((1000 : ℕ) : ℝ) / 100) = Real.sqrt 9.81 * 10 - 10 * Real.pi + (5 : ℕ) * (2 * Real.pi) := by
          push_cast; ring
        rw [h1, Real.cos_add_nat_mul_two_pi]
      rw [e]
      have h2 := Real.one_sub_sq_div_two_le_cos (x := Real.sqrt 9.81 * 10 - 10 * Real.pi)
      have h3 : (Real.sqrt 9.81 * 10 - 10 * Real.pi) ^ 2 ≤ 0.1 ^ 2 := by
        apply sq_le_sq'
        · norm_num at *; linarith
        · norm_num at *; linarith
      have h4 : 1 - Real.cos (Real.sqrt 9.81 * 10 - 10 * Real.pi) ≤ 0.005 := by norm_num at *; linarith
      have h5 : Real.pi / 60 * (1 - Real.cos (Real.sqrt 9.81 * 10 - 10 * Real.pi)) ≤ Real.pi / 60 * 0.005 :=
        mul_le_mul_of_nonneg_left h4 (by positivity)
      norm_num at *
      linarith)
  have hf := files_lines j1 j2 na ng 2000 (pendulumSample 1 (Real.pi / 60) 1000)
  have hmain : pendulumMain j1 j2 na ng = pendulumFiles j1 j2 na ng ((List.range 2000).map (pendulumSample 1 (Real.pi / 60) 1000)) := by
    unfold pendulumMain
    rw [hsim]
  rw [hmain]
  dsimp only at hf
  clear hsim hmain
  have hang : ∀ i : ℕ, pendulumAngle 1 (Real.pi / 60) 1000 i =
      (if i < 1000 then Real.pi / 60 else Real.pi / 60 * Real.cos (Real.sqrt 9.81 * (i / 100))) := by
    intro i
    unfold pendulumAngle
    rw [hGL]
  have hsample : ∀ i : ℕ, (pendulumSample 1 (Real.pi / 60) 1000 i).time = (i : ℝ) / 100 ∧
      (pendulumSample 1 (Real.pi / 60) 1000 i).theta = pendulumAngle 1 (Real.pi / 60) 1000 i := fun i => ⟨rfl, rfl⟩
  generalize 2000 = N at *
  generalize pendulumSample 1 (Real.pi / 60) 1000 = s at *
  generalize pendulumAngle 1 (Real.pi / 60) 1000 = θ at *
  refine ⟨hf.1, hf.2.1, ?_⟩
  intro i x y hx hy
  obtain ⟨hi, f1, f2, f3, o, ho, f4⟩ := hf.2.2 i x y hx hy
  have hts : swingTs (s i) = 1583315232492 + 10 * i := by
    have e : (1583315232492 : ℝ) + 1000 * (s i).time = ((1583315232492 + 10 * i : Int) : ℝ) := by
      rw [(hsample i).1]
      push_cast
      ring
    unfold swingTs
    rw [e, Int.floor_intCast]
  rw [f1, f2, f1, f3, f4, (hsample i).2]
  refine ⟨hts, rfl, hang i, ?_⟩
  intro h40
  have has : Real.arcsin 0.0104 ≤ 0.01041 := arcsin_small _ _ (by norm_num) (by norm_num) (by norm_num)
  have has0 : 0 ≤ Real.arcsin 0.0104 := Real.arcsin_nonneg.mpr (by norm_num)
  have hb := C114_swing j1 j2 1 (Real.pi / 60) 0.00165 |Real.pi / 60| 0.0104 0.1 0.01 θ na ng N _
    hsw (by rw [hθ]; linarith) (by norm_num) (by norm_num) (by norm_num) (by norm_num) (by norm_num) (by rw [hG]; norm_num)
    (by rw [hθ, hG]; norm_num; linarith) ha hg hfirst (by rw [hθ]; norm_num at *; linarith) (by norm_num at *; linarith) i o ho
  refine lt_of_le_of_lt hb ?_
  rw [hθ]
  have h1 : ((11 : ℝ) / 12) ^ (i + 1) ≤ (11 / 12) ^ 41 := pow_le_pow_of_le_one (by norm_num) (by norm_num) (by omega)
  have h2 : ((11 : ℝ) / 12) ^ 41 ≤ 0.0283 := by norm_num
  have h3 : ((11 : ℝ) / 12) ^ (i + 1) * (Real.pi / 60) ≤ 0.0283 * (Real.pi / 60) :=
    mul_le_mul_of_nonneg_right (h1.trans h2) (by positivity)
  generalize ((11 : ℝ) / 12) ^ (i + 1) * (Real.pi / 60) = P at *
  clear h1 h2 hb
  norm_num at *
  linarith

/-- Noises that meet the bounds: the bias of the gyroscope alone. -/
example (j1 j2 : SensorType) : ∃ a c, (pendulumMain j1 j2 (fun _ => ⟨0.01, 0, 0⟩) (fun _ => ⟨0.005, 0.005, 0.005⟩)).1[1500]? = some a ∧
    (pendulumMain j1 j2 (fun _ => ⟨0.01, 0, 0⟩) (fun _ => ⟨0.005, 0.005, 0.005⟩)).2[1500]? = some c ∧
    |c.pitch - a.theta| < Real.pi / 180 := by
  obtain ⟨h1, h2, h3⟩ := C114_program j1 j2 (fun _ => ⟨0.01, 0, 0⟩) (fun _ => ⟨0.005, 0.005, 0.005⟩)
    (fun i _ => by
      unfold magnitude
      rw [Real.sqrt_le_iff]
      constructor <;> norm_num)
    (fun i _ => by
      unfold magnitude
      rw [Real.sqrt_le_iff]
      constructor <;> norm_num)
  have e1 := List.getElem?_eq_getElem (l := (pendulumMain j1 j2 (fun _ => ⟨0.01, 0, 0⟩) (fun _ => ⟨0.005, 0.005, 0.005⟩)).1) (i := 1500)
    (by omega)
  have e2 := List.getElem?_eq_getElem (l := (pendulumMain j1 j2 (fun _ => ⟨0.01, 0, 0⟩) (fun _ => ⟨0.005, 0.005, 0.005⟩)).2) (i := 1500)
    (by omega)
  exact ⟨_, _, e1, e2, (h3 1500 _ _ e1 e2).2.2.2 (by norm_num)⟩

end Verif.Standalone.Cf
