import Verif.Fusion.RestProps

/-! # C114: the tilt of a device that moves -/

namespace Verif.Fusion

open Verif Verif.Pedo

/-! ## Specification -/

/-- Where the rotation that a gyroscope reports, at the given rates for `d` milliseconds, takes a direction. -/
noncomputable def turned (rates : Vector3d) (d : Int) (v : Vector3d) : Vector3d :=
  rotateAbout (direction rates) (turn (magnitude rates) d) v

/-- For a device that moves: messages, each with a reference direction (such as the true upward direction) at its time. How much the
gyroscope messages fail to report of the motion of the reference direction, `v` before the list; `t` is the time of the gyroscope
message before. -/
noncomputable def missed : Option Int → Vector3d → List (SensorMeasurement × Vector3d) → ℝ
  | _, _, [] => 0
  | t, v, (m, v') :: l => if m.data.type = SensorType.GYROSCOPE then
      angleBetween (turned m.data.values (m.ts - t.getD m.ts) v') v + missed (some m.ts) v' l
    else angleBetween v v' + missed t v' l

/-- The messages of rounds with reference directions. -/
def bare (rounds : List (SensorMeasurement × List (SensorMeasurement × Vector3d))) :
    List (SensorMeasurement × List SensorMeasurement) :=
  rounds.map (fun r => (r.1, r.2.map Prod.fst))

/-- The reference direction after some messages. -/
def refAfter (v : Vector3d) (l : List (SensorMeasurement × Vector3d)) : Vector3d := ((l.map Prod.snd).getLast?).getD v

/-- The reference direction after some rounds. -/
def refAt (v : Vector3d) (rounds : List (SensorMeasurement × List (SensorMeasurement × Vector3d))) : Vector3d :=
  refAfter v (rounds.flatMap Prod.snd)

/-- What is asked of the sensors of a device that moves, `v` the reference direction at the start: each accelerometer message is off the
reference direction at its time by at most `δ`, between two of them the gyroscope misses at most `ε` of its motion. -/
structure MovingRounds (v : Vector3d) (δ ε : ℝ) (ms : List SensorMeasurement)
    (rounds : List (SensorMeasurement × List (SensorMeasurement × Vector3d))) : Prop where
  unit : dot v v = 1 ∧ ∀ r ∈ rounds, ∀ m ∈ r.2, dot m.2 m.2 = 1
  accel : ∀ before r after, rounds = before ++ r :: after → r.1.data.type = SensorType.ACCELEROMETER ∧
    EPSILON < magnitude r.1.data.values ∧ angleBetween (refAt v before) (direction r.1.data.values) ≤ δ
  other : ∀ r ∈ rounds, ∀ m ∈ r.2, m.1.data.type ≠ SensorType.ACCELEROMETER
  gyro : ∀ before r after, rounds = before ++ r :: after →
    missed (lastGyro (ms ++ messages (bare before))) (refAt v before) r.2 ≤ ε
  stamps : ∀ m ∈ ms ++ messages (bare rounds), m.data.type = SensorType.GYROSCOPE → m.ts ≠ -1
  magn : ∀ p m r, messages (bare rounds) = p ++ m :: r → m.data.type = SensorType.MAGNETOMETER →
    ∃ g ∈ ms ++ p, g.data.type = SensorType.GYROSCOPE

/-! ## What a gyroscope misses -/

theorem rotate_zero (n v : Vector3d) : rotateAbout n 0 v = v := by
  apply vec_ext <;> simp [rotateAbout]

theorem turned_axis (x n v : Vector3d) (d : Int) (hn : dot n n = 1)
    (hx : x = ⟨magnitude x * n.x, magnitude x * n.y, magnitude x * n.z⟩) : turned x d v = rotateAbout n (turn (magnitude x) d) v := by
  unfold turned
  by_cases h : magnitude x = 0
  · have : turn (magnitude x) d = 0 := by rw [h]; simp [turn]
    rw [this, rotate_zero, rotate_zero]
  · have e : direction x = n := by
      unfold direction
      have e1 := congrArg Vector3d.x hx
      have e2 := congrArg Vector3d.y hx
      have e3 := congrArg Vector3d.z hx
      dsimp only at e1 e2 e3
      apply vec_ext
      · dsimp only; rw [e1]; field_simp
      · dsimp only; rw [e2]; field_simp
      · dsimp only; rw [e3]; field_simp
    rw [e]

theorem turned_unit (x v : Vector3d) (d : Int) (hv : dot v v = 1) : dot (turned x d v) (turned x d v) = 1 := by
  obtain ⟨n, hn, hx⟩ := exists_axis x
  rw [turned_axis x n v d hn hx]
  exact (rotate_angle n hn _ v hv).2

/-- A rotation by twice the angle whose tangent is `t`, without trigonometric functions. -/
theorem rotate_closed (n v : Vector3d) (t : ℝ) (hn : dot n n = 1) :
    let a := vscale t n
    rotateAbout n (2 * Real.arctan t) v = vscale (1 / (1 + dot a a))
      ⟨(1 - dot a a) * v.x + 2 * (a.y * v.z - a.z * v.y) + 2 * dot a v * a.x,
       (1 - dot a a) * v.y + 2 * (a.z * v.x - a.x * v.z) + 2 * dot a v * a.y,
       (1 - dot a a) * v.z + 2 * (a.x * v.y - a.y * v.x) + 2 * dot a v * a.z⟩ := by
  intro a
  change _ = vscale (1 / (1 + dot (vscale t n) (vscale t n))) _
  have hd : dot (vscale t n) (vscale t n) = t ^ 2 := by
    have : dot (vscale t n) (vscale t n) = t ^ 2 * dot n n := by simp only [dot, vscale]; ring
    rw [this, hn, mul_one]
  have hdv : dot (vscale t n) v = t * dot n v := by simp only [dot, vscale]; ring
  have ha : a = vscale t n := rfl
  rw [ha, hd, hdv]
  have hp : 0 < 1 + t ^ 2 := by positivity
  have hc : Real.cos (2 * Real.arctan t) = (1 - t ^ 2) / (1 + t ^ 2) := by
    rw [Real.cos_two_mul, Real.cos_sq_arctan]
    field_simp
    ring
  have hs : Real.sin (2 * Real.arctan t) = 2 * t / (1 + t ^ 2) := by
    rw [Real.sin_two_mul, ← Real.tan_mul_cos (Real.cos_arctan_pos t).ne', Real.tan_arctan]
    have := Real.cos_sq_arctan t
    have e : 2 * (t * Real.cos (Real.arctan t)) * Real.cos (Real.arctan t) = 2 * t * Real.cos (Real.arctan t) ^ 2 := by ring
    rw [e, this]
    field_simp
  unfold rotateAbout
  rw [hc, hs]
  apply vec_ext <;> simp only [vscale] <;> field_simp <;> ring

/-- The reported rotation in terms of half the rotation vector. -/
theorem turned_closed (x v : Vector3d) (d : Int) :
    let a := vscale (d / 2000) x
    turned x d v = vscale (1 / (1 + dot a a))
      ⟨(1 - dot a a) * v.x + 2 * (a.y * v.z - a.z * v.y) + 2 * dot a v * a.x,
       (1 - dot a a) * v.y + 2 * (a.z * v.x - a.x * v.z) + 2 * dot a v * a.y,
       (1 - dot a a) * v.z + 2 * (a.x * v.y - a.y * v.x) + 2 * dot a v * a.z⟩ := by
  intro a
  obtain ⟨n, hn, hx⟩ := exists_axis x
  rw [turned_axis x n v d hn hx]
  have ha : a = vscale (magnitude x * (d / 1000) / 2) n := by
    change vscale (d / 2000) x = _
    conv_lhs => rw [hx]
    apply vec_ext <;> simp only [vscale] <;> ring
  rw [ha]
  exact rotate_closed n v _ hn

theorem turned_rate (n v : Vector3d) (ω : ℝ) (d : Int) (hn : dot n n = 1) :
    turned (vscale ω n) d v = rotateAbout n (turn ω d) v := by
  have h1 := turned_closed (vscale ω n) v d
  have h2 := rotate_closed n v (ω * (d / 1000) / 2) hn
  dsimp only at h1 h2
  unfold turn
  rw [h1, h2]
  have : vscale ((d : ℝ) / 2000) (vscale ω n) = vscale (ω * (d / 1000) / 2) n := by
    apply vec_ext <;> simp only [vscale] <;> ring
  rw [this]

/-- Two reported rotations of a direction differ by at most the difference of the rates times the time. -/
theorem turned_near (x y v : Vector3d) (d : Int) (hv : dot v v = 1) :
    angleBetween (turned x d v) (turned y d v) ≤ magnitude ⟨x.x - y.x, x.y - y.y, x.z - y.z⟩ * (|(d : ℝ)| / 1000) := by
  set r := magnitude ⟨x.x - y.x, x.y - y.y, x.z - y.z⟩ with hr
  have hr0 : 0 ≤ r := magnitude_nonneg _
  set δ := r * (|(d : ℝ)| / 1000) / 2 with hδ
  have hδ0 : 0 ≤ δ := by positivity
  have e0 : r * (|(d : ℝ)| / 1000) = 2 * δ := by rw [hδ]; ring
  rw [e0]
  by_cases hbig : Real.pi ≤ 2 * δ
  · exact (angle_le_pi _ _).trans hbig
  have hδ2 : δ ≤ 2 := by linarith [Real.pi_lt_d2]
  have hx := turned_closed x v d
  have hy := turned_closed y v d
  dsimp only at hx hy
  rw [hx, hy]
  have hδsq : δ ^ 2 = (vscale (d / 2000) x).x ^ 2 + (vscale (d / 2000) x).y ^ 2 + (vscale (d / 2000) x).z ^ 2 +
      ((vscale (d / 2000) y).x ^ 2 + (vscale (d / 2000) y).y ^ 2 + (vscale (d / 2000) y).z ^ 2) -
      2 * ((vscale (d / 2000) x).x * (vscale (d / 2000) y).x + (vscale (d / 2000) x).y * (vscale (d / 2000) y).y +
        (vscale (d / 2000) x).z * (vscale (d / 2000) y).z) := by
    have h2 : r ^ 2 = (x.x - y.x) ^ 2 + (x.y - y.y) ^ 2 + (x.z - y.z) ^ 2 := by
      rw [hr, magnitude_sq]
      simp only [dot]; ring
    have : δ ^ 2 = r ^ 2 * |(d : ℝ)| ^ 2 / 4000000 := by rw [hδ]; ring
    rw [this, h2, sq_abs]
    simp only [vscale]
    ring
  generalize vscale (d / 2000) x = a at *
  generalize vscale (d / 2000) y = b at *
  clear hx hy
  clear_value δ
  -- the norms of the two quaternions and their product
  set A := dot a a with hA
  set B := dot b b with hB
  set C := dot a b with hC
  have hA0 : 0 ≤ A := dot_self_nonneg a
  have hB0 : 0 ≤ B := dot_self_nonneg b
  have hδ' : δ ^ 2 = A + B - 2 * C := by rw [hδsq, hA, hB, hC]; simp only [dot]; ring
  have hP : 0 < (1 + A) * (1 + B) := by positivity
  -- the scalar product of the two results
  have hdot : 2 * (1 + C) ^ 2 / ((1 + A) * (1 + B)) - 1 ≤ dot
      (vscale (1 / (1 + A)) ⟨(1 - A) * v.x + 2 * (a.y * v.z - a.z * v.y) + 2 * dot a v * a.x,
        (1 - A) * v.y + 2 * (a.z * v.x - a.x * v.z) + 2 * dot a v * a.y,
        (1 - A) * v.z + 2 * (a.x * v.y - a.y * v.x) + 2 * dot a v * a.z⟩)
      (vscale (1 / (1 + B)) ⟨(1 - B) * v.x + 2 * (b.y * v.z - b.z * v.y) + 2 * dot b v * b.x,
        (1 - B) * v.y + 2 * (b.z * v.x - b.x * v.z) + 2 * dot b v * b.y,
        (1 - B) * v.z + 2 * (b.x * v.y - b.y * v.x) + 2 * dot b v * b.z⟩) := by
    set w : Vector3d := ⟨b.x - a.x - (a.y * b.z - a.z * b.y), b.y - a.y - (a.z * b.x - a.x * b.z), b.z - a.z - (a.x * b.y - a.y * b.x)⟩ with hw
    have hww : dot w w = (1 + A) * (1 + B) - (1 + C) ^ 2 := by
      rw [hw, hA, hB, hC]; simp only [dot]; ring
    have hcr : dot (cross w v) (cross w v) ≤ dot w w := by
      have e : dot (cross w v) (cross w v) = dot w w * dot v v - dot w v ^ 2 := by simp only [dot, cross]; ring
      rw [e, hv, mul_one]
      linarith [sq_nonneg (dot w v)]
    have key : dot
      (vscale (1 / (1 + A)) ⟨(1 - A) * v.x + 2 * (a.y * v.z - a.z * v.y) + 2 * dot a v * a.x,
        (1 - A) * v.y + 2 * (a.z * v.x - a.x * v.z) + 2 * dot a v * a.y,
        (1 - A) * v.z + 2 * (a.x * v.y - a.y * v.x) + 2 * dot a v * a.z⟩)
      (vscale (1 / (1 + B)) ⟨(1 - B) * v.x + 2 * (b.y * v.z - b.z * v.y) + 2 * dot b v * b.x,
        (1 - B) * v.y + 2 * (b.z * v.x - b.x * v.z) + 2 * dot b v * b.y,
        (1 - B) * v.z + 2 * (b.x * v.y - b.y * v.x) + 2 * dot b v * b.z⟩) =
        ((1 + A) * (1 + B) * dot v v - 2 * dot (cross w v) (cross w v)) / ((1 + A) * (1 + B)) := by
      have e : ∀ (f g : Vector3d) (p q : ℝ), dot (vscale p f) (vscale q g) = p * q * dot f g := by
        intro f g p q; simp only [dot, vscale]; ring
      rw [e, div_eq_inv_mul ((1 + A) * (1 + B) * dot v v - _), mul_inv, one_div, one_div]
      congr 1
      rw [hw, hA, hB]
      simp only [dot, cross]
      ring
    rw [key, hv, mul_one, sub_le_iff_le_add, div_le_iff₀ hP, add_mul, div_mul_cancel₀ _ hP.ne']
    linarith
  have hCl : 1 - δ ^ 2 / 2 ≤ 1 + C := by nlinarith
  -- the product is at least that of rotations about one axis
  have hnum : 0 ≤ 1 - δ ^ 2 / 4 := by nlinarith
  have hS : δ ^ 2 ≤ 2 * (A + B) := by
    have : 0 ≤ A + B + 2 * C := by
      have e : A + B + 2 * C = dot (⟨a.x + b.x, a.y + b.y, a.z + b.z⟩ : Vector3d) ⟨a.x + b.x, a.y + b.y, a.z + b.z⟩ := by
        rw [hA, hB, hC]; simp only [dot]; ring
      rw [e]; exact dot_self_nonneg _
    linarith
  have hratio : ((1 - δ ^ 2 / 4) / (1 + δ ^ 2 / 4)) ^ 2 ≤ (1 + C) ^ 2 / ((1 + A) * (1 + B)) := by
    have hAM : (1 + A) * (1 + B) ≤ (1 + (A + B) / 2) ^ 2 := by nlinarith [sq_nonneg (A - B)]
    have hC1 : 1 + C = 1 + (A + B) / 2 - δ ^ 2 / 2 := by linarith
    have hC0 : 0 ≤ 1 + C := by rw [hC1]; linarith
    have hq : (1 - δ ^ 2 / 4) / (1 + δ ^ 2 / 4) ≤ (1 + C) / (1 + (A + B) / 2) := by
      rw [div_le_div_iff₀ (by positivity) (by positivity), hC1]
      nlinarith [mul_nonneg (sq_nonneg δ) (by linarith : 0 ≤ (A + B) / 2 - δ ^ 2 / 4)]
    have hq0 : 0 ≤ (1 - δ ^ 2 / 4) / (1 + δ ^ 2 / 4) := div_nonneg hnum (by positivity)
    have := pow_le_pow_left₀ hq0 hq 2
    refine this.trans ?_
    rw [div_pow]
    exact div_le_div_of_nonneg_left (sq_nonneg _) hP hAM
  have hcos : Real.cos (4 * Real.arctan (δ / 2)) ≤ 2 * (1 + C) ^ 2 / ((1 + A) * (1 + B)) - 1 := by
    have e1 : Real.cos (2 * Real.arctan (δ / 2)) = (1 - δ ^ 2 / 4) / (1 + δ ^ 2 / 4) := by
      rw [Real.cos_two_mul, Real.cos_sq_arctan]
      have : 0 < 1 + δ ^ 2 / 4 := by positivity
      have h4 : (1 + (δ / 2) ^ 2) = 1 + δ ^ 2 / 4 := by ring
      rw [h4]
      field_simp
      ring
    have e2 : (4 : ℝ) * Real.arctan (δ / 2) = 2 * (2 * Real.arctan (δ / 2)) := by ring
    rw [e2, Real.cos_two_mul, e1, mul_div_assoc]
    linarith
  have hat : 2 * Real.arctan (δ / 2) ≤ δ := (two_arctan δ hδ0).2.1
  have hat0 : 0 ≤ 2 * Real.arctan (δ / 2) := (two_arctan δ hδ0).1
  unfold angleBetween
  calc Real.arccos _ ≤ Real.arccos (Real.cos (4 * Real.arctan (δ / 2))) := Real.arccos_le_arccos (hcos.trans hdot)
    _ = 4 * Real.arctan (δ / 2) := Real.arccos_cos (by linarith) (by linarith [not_le.mp hbig])
    _ ≤ 2 * δ := by linarith

/-! ## A device that moves -/

theorem rotate_add (n v : Vector3d) (hn : dot n n = 1) (α β : ℝ) : rotateAbout n α (rotateAbout n β v) = rotateAbout n (α + β) v := by
  have hd : dot n (rotateAbout n β v) = dot n v := by
    have : dot n (rotateAbout n β v) = Real.cos β * dot n v + (1 - Real.cos β) * dot n v * dot n n := by
      simp only [dot, rotateAbout]; ring
    rw [this, hn]; ring
  unfold rotateAbout at hd ⊢
  rw [Real.cos_add, Real.sin_add]
  unfold dot at hn
  have hx : n.x ^ 2 = 1 - n.y ^ 2 - n.z ^ 2 := by linarith
  apply vec_ext <;> dsimp only at hd ⊢ <;> rw [hd] <;> simp only [dot]
  · linear_combination (-(Real.sin α * Real.sin β * v.x)) * hn
  · linear_combination (-(Real.sin α * Real.sin β * v.y)) * hn
  · linear_combination (-(Real.sin α * Real.sin β * v.z)) * hn

/-- **C114.** What a gyroscope misses in a rotation of the device about the axis `n` at the rate `ω`, which takes the reference
direction (as seen from the device) from `v` to `v'` within `d` milliseconds: at most the error of the rates times the time,
and the third power of the angle divided by 12, because the filter replaces a rotation by a step along the tangent. -/
theorem C114_rates (rates n v v' : Vector3d) (ω w : ℝ) (d : Int) (hn : dot n n = 1) (hv' : dot v' v' = 1)
    (hv : v = rotateAbout n (ω * (d / 1000)) v')
    (hw : magnitude ⟨rates.x - ω * n.x, rates.y - ω * n.y, rates.z - ω * n.z⟩ ≤ w) :
    angleBetween (turned rates d v') v ≤ w * (|(d : ℝ)| / 1000) + |ω * (d / 1000)| ^ 3 / 12 := by
  have h1 := turned_near rates (vscale ω n) v' d hv'
  have e : (⟨rates.x - (vscale ω n).x, rates.y - (vscale ω n).y, rates.z - (vscale ω n).z⟩ : Vector3d) =
      ⟨rates.x - ω * n.x, rates.y - ω * n.y, rates.z - ω * n.z⟩ := by
    apply vec_ext <;> simp only [vscale] <;> ring
  rw [e] at h1
  have h2 : angleBetween (turned (vscale ω n) d v') v ≤ |turn ω d - ω * (d / 1000)| := by
    rw [turned_rate n v' ω d hn, hv, angle_symm]
    have e2 : rotateAbout n (turn ω d) v' =
        rotateAbout n (turn ω d - ω * (d / 1000)) (rotateAbout n (ω * (d / 1000)) v') := by
      rw [rotate_add n v' hn]
      congr 1
      ring
    rw [e2, angle_symm]
    exact (rotate_angle n hn _ _ (rotate_angle n hn _ v' hv').2).1
  have h3 : |turn ω d - ω * (d / 1000)| ≤ |ω * (d / 1000)| ^ 3 / 12 := by
    unfold turn
    generalize ω * ((d : ℝ) / 1000) = x
    have pos : ∀ y : ℝ, 0 ≤ y → |2 * Real.arctan (y / 2) - y| ≤ |y| ^ 3 / 12 := by
      intro y hy
      obtain ⟨t1, t2, t3⟩ := two_arctan y hy
      rw [abs_of_nonneg hy, abs_le]
      constructor
      · linarith
      · have : 0 ≤ y ^ 3 := by positivity
        linarith
    rcases le_total 0 x with hx | hx
    · exact pos x hx
    · have := pos (-x) (by linarith)
      rw [neg_div, Real.arctan_neg, abs_neg] at this
      rw [← abs_neg]
      convert this using 2
      ring
  have h4 := angle_tri (turned rates d v') (turned (vscale ω n) d v') v (turned_unit _ _ _ hv') (turned_unit _ _ _ hv')
    (by rw [hv]; exact (rotate_angle n hn _ v' hv').2)
  have h5 := mul_le_mul_of_nonneg_right hw (by positivity : 0 ≤ |(d : ℝ)| / 1000)
  linarith

theorem refAfter_nil (v : Vector3d) : refAfter v [] = v := rfl

theorem refAfter_cons (v : Vector3d) (m : SensorMeasurement × Vector3d) (l : List (SensorMeasurement × Vector3d)) :
    refAfter v (m :: l) = refAfter m.2 l := by
  unfold refAfter
  cases l with
  | nil => simp
  | cons a l => rw [List.map_cons, List.map_cons, List.getLast?_cons_cons, List.getLast?_cons]; rfl

theorem refAfter_append (v : Vector3d) (l l' : List (SensorMeasurement × Vector3d)) :
    refAfter v (l ++ l') = refAfter (refAfter v l) l' := by
  induction l generalizing v with
  | nil => rfl
  | cons m l ih => rw [List.cons_append, refAfter_cons, refAfter_cons, ih]

theorem refAt_snoc (v : Vector3d) (rounds : List (SensorMeasurement × List (SensorMeasurement × Vector3d)))
    (r : SensorMeasurement × List (SensorMeasurement × Vector3d)) : refAt v (rounds ++ [r]) = refAfter (refAt v rounds) r.2 := by
  unfold refAt
  rw [List.flatMap_append, refAfter_append]
  simp

theorem refAfter_unit (v : Vector3d) (l : List (SensorMeasurement × Vector3d)) (hv : dot v v = 1)
    (h : ∀ m ∈ l, dot m.2 m.2 = 1) : dot (refAfter v l) (refAfter v l) = 1 := by
  induction l generalizing v with
  | nil => exact hv
  | cons m l ih =>
    rw [refAfter_cons]
    exact ih m.2 (h m (by simp)) (fun x hx => h x (by simp [hx]))

/-- The messages between two accelerometer messages. -/
theorem others_moving (c : CfConfig) (hki : c.ki ≤ CF_DOUBLE_EPSILON) (j1 j2 : SensorType × Int)
    (l : List (SensorMeasurement × Vector3d)) (v : Vector3d) (hv : dot v v = 1) (hl : ∀ m ∈ l, dot m.2 m.2 = 1)
    (ms : List SensorMeasurement) (hts : ∀ m ∈ ms ++ l.map Prod.fst, m.data.type = SensorType.GYROSCOPE → m.ts ≠ -1)
    (hacc : ∀ m ∈ l, m.1.data.type ≠ SensorType.ACCELEROMETER)
    (hmagn : ∀ p m r, l.map Prod.fst = p ++ m :: r → m.data.type = SensorType.MAGNETOMETER →
      ∃ g ∈ ms ++ p, g.data.type = SensorType.GYROSCOPE) :
    tiltError (cfRun c j1 j2 (ms ++ l.map Prod.fst)) (refAfter v l) ≤ tiltError (cfRun c j1 j2 ms) v + missed (lastGyro ms) v l := by
  induction l generalizing ms v with
  | nil => simp [missed, refAfter_nil]
  | cons m l ih =>
    obtain ⟨m, v'⟩ := m
    have hv' : dot v' v' = 1 := hl (m, v') (by simp)
    have h1 := ih v' hv' (fun x hx => hl x (by simp [hx])) (ms ++ [m]) (by simpa using hts) (fun x hx => hacc x (by simp [hx]))
      (fun p x r e hx => by
        obtain ⟨g, hg, hg'⟩ := hmagn (m :: p) x r (by rw [List.map_cons, e]; rfl) hx
        exact ⟨g, by simpa using hg, hg'⟩)
    rw [List.append_assoc, List.singleton_append, lastGyro_snoc] at h1
    rw [refAfter_cons, List.map_cons]
    dsimp only
    by_cases hg : m.data.type = SensorType.GYROSCOPE
    · rw [if_pos hg] at h1
      obtain ⟨n, hn, hx⟩ := exists_axis m.data.values
      have h2 := (C110_gyro c hki j1 j2 ms (fun x hx => hts x (by simp [hx])) m hg v v' hv hv').1 n _ hn hx
      rw [← turned_axis _ n v' _ hn hx] at h2
      rw [missed, if_pos hg]
      linarith
    · rw [if_neg hg] at h1
      rw [missed, if_neg hg]
      have h2 := others c hki j1 j2 v hv [m] ms (fun x hx => hts x (by
          rcases List.mem_append.mp hx with h | h
          · simp [h]
          · simp only [List.mem_singleton] at h; simp [h]))
        (fun x hx => by
          simp only [List.mem_singleton] at hx
          rw [hx]
          exact hacc (m, v') (by simp))
        (fun p x r e hx => by
          have hp : p = [] ∧ x = m ∧ r = [] := by
            cases p with
            | nil =>
              simp only [List.nil_append, List.cons.injEq] at e
              exact ⟨rfl, e.1.symm, e.2.symm⟩
            | cons a p => simp at e
          rw [hp.1]
          exact hmagn [] x (l.map Prod.fst) (by rw [hp.2.1]; rfl) hx)
      rw [reported, if_neg hg, reported, add_zero] at h2
      have h3 := angle_tri v' v _ hv' hv (up_unit _ (unit_run c j1 j2 (ms ++ [m])))
      rw [angle_symm v' v] at h3
      unfold tiltError at *
      linarith

theorem bare_snoc (rounds : List (SensorMeasurement × List (SensorMeasurement × Vector3d)))
    (r : SensorMeasurement × List (SensorMeasurement × Vector3d)) :
    messages (bare (rounds ++ [r])) = messages (bare rounds) ++ [r.1] ++ r.2.map Prod.fst := by
  unfold bare
  rw [List.map_append, List.map_singleton, messages_snoc]

theorem moving_prefix {v : Vector3d} {δ ε : ℝ} {ms : List SensorMeasurement}
    {rounds : List (SensorMeasurement × List (SensorMeasurement × Vector3d))}
    {r : SensorMeasurement × List (SensorMeasurement × Vector3d)}
    (h : MovingRounds v δ ε ms (rounds ++ [r])) : MovingRounds v δ ε ms rounds where
  unit := ⟨h.unit.1, fun x hx => h.unit.2 x (by simp [hx])⟩
  accel b x a e := h.accel b x (a ++ [r]) (by rw [e]; simp)
  other x hx := h.other x (by simp [hx])
  gyro b x a e := h.gyro b x (a ++ [r]) (by rw [e]; simp)
  stamps m hm := h.stamps m (by
    rw [bare_snoc]
    rcases List.mem_append.mp hm with h' | h' <;> simp [h'])
  magn p m q e := h.magn p m (q ++ [r.1] ++ r.2.map Prod.fst) (by rw [bare_snoc, e]; simp)

/-- The rounds, with any contraction. -/
theorem moving_rounds (c : CfConfig) (hk : 0 ≤ c.ka) (hk1 : c.ka ≤ 1) (hki : c.ki ≤ CF_DOUBLE_EPSILON) (j1 j2 : SensorType × Int)
    (v : Vector3d) (δ ε κ Θ : ℝ) (hε : 0 ≤ ε) (hκ : 0 < κ) (hκ1 : κ ≤ 1) (hΘπ : Θ ≤ Real.pi / 2)
    (hφ : ∀ θ, 0 ≤ θ → θ ≤ Θ → θ - 2 * Real.arctan (c.ka * Real.sin θ / 2) ≤ (1 - κ) * θ)
    (hΘ : 2 * δ + ε / κ ≤ Θ) (ms : List SensorMeasurement)
    (h0 : tiltError (cfRun c j1 j2 ms) v + δ ≤ Θ) (hδ : 0 ≤ δ)
    (rounds : List (SensorMeasurement × List (SensorMeasurement × Vector3d))) (h : MovingRounds v δ ε ms rounds) :
    tiltError (cfRun c j1 j2 (ms ++ messages (bare rounds))) (refAt v rounds) + δ ≤ Θ ∧
    tiltError (cfRun c j1 j2 (ms ++ messages (bare rounds))) (refAt v rounds) ≤
      (1 - κ) ^ rounds.length * tiltError (cfRun c j1 j2 ms) v + (δ + ε / κ) := by
  have hb0 : 0 ≤ ε / κ := div_nonneg hε hκ.le
  induction rounds using List.reverseRecOn with
  | nil =>
    simp only [messages, bare, List.map_nil, List.flatMap_nil, List.append_nil, List.length_nil, pow_zero, one_mul, refAt, refAfter_nil]
    exact ⟨h0, by linarith⟩
  | append_singleton rounds r ih =>
    obtain ⟨i1, i2⟩ := ih (moving_prefix h)
    obtain ⟨a1, a2, a3⟩ := h.accel rounds r [] rfl
    have hg := h.gyro rounds r [] rfl
    have hu : dot (refAt v rounds) (refAt v rounds) = 1 := by
      refine refAfter_unit _ _ h.unit.1 (fun m hm => ?_)
      rw [List.mem_flatMap] at hm
      obtain ⟨x, hx, hm⟩ := hm
      exact h.unit.2 x (by simp [hx]) m hm
    have ha := direction_unit _ a2
    rw [refAt_snoc]
    generalize refAt v rounds = u at *
    have hup := up_unit _ (unit_run c j1 j2 (ms ++ messages (bare rounds)))
    have hθ : tiltError (cfRun c j1 j2 (ms ++ messages (bare rounds))) (direction r.1.data.values) ≤ Θ := by
      have := angle_tri _ u _ ha hu hup
      rw [angle_symm _ u] at this
      unfold tiltError at *
      linarith
    have hθ0 : 0 ≤ tiltError (cfRun c j1 j2 (ms ++ messages (bare rounds))) (direction r.1.data.values) := angle_nonneg _ _
    have hx0 : 0 ≤ tiltError (cfRun c j1 j2 (ms ++ messages (bare rounds))) u := angle_nonneg _ _
    obtain ⟨s, s1, s2, s3⟩ := exists_part c.ka κ _ hk hk1 hθ0 (angle_le_pi _ _) hκ.le hκ1 (hφ _ hθ0 hθ)
    have hpull := C110_pull c hk hk1 j1 j2 (ms ++ messages (bare rounds)) r.1 a1 a2 u hu (by linarith) (by linarith) s (by linarith) s2 s3
    have o := others_moving c hki j1 j2 r.2 u hu (h.unit.2 r (by simp)) (ms ++ messages (bare rounds) ++ [r.1])
      (fun m hm => h.stamps m (by rw [bare_snoc]; simpa using hm))
      (h.other r (by simp))
      (fun p m q e hm => by
        obtain ⟨g, hg, hg'⟩ := h.magn (messages (bare rounds) ++ [r.1] ++ p) m q (by rw [bare_snoc, e]; simp) hm
        exact ⟨g, by simpa using hg, hg'⟩)
    have hlg : lastGyro (ms ++ messages (bare rounds) ++ [r.1]) = lastGyro (ms ++ messages (bare rounds)) := by
      rw [lastGyro_snoc, if_neg]
      rw [a1]
      decide
    rw [hlg] at o
    have e : ms ++ messages (bare (rounds ++ [r])) = ms ++ messages (bare rounds) ++ [r.1] ++ r.2.map Prod.fst := by
      rw [bare_snoc]; simp
    rw [e, List.length_append, List.length_singleton, pow_succ, mul_comm _ (1 - κ), mul_assoc]
    exact round_bound hκ hκ1 hε hΘ (mul_nonneg (pow_nonneg (by linarith) _) (angle_nonneg _ _)) s1 s2 a3 i1 i2 hpull (by linarith)

/-- **C114.** A device that moves. The filter may start with any tilt error up to a right angle less `δ`; every round of messages
in which the accelerometer is off by at most `δ` and the gyroscope misses at most `ε` of the motion diminishes it by the factor
`1 - k/2`, down to `δ + 2 ε / k` (if `2 δ + 2 ε / k` is at most a right angle). -/
theorem C114_moving (c : CfConfig) (hk : 0 < c.ka) (hk1 : c.ka ≤ 1) (hki : c.ki ≤ CF_DOUBLE_EPSILON) (j1 j2 : SensorType × Int)
    (v : Vector3d) (δ ε : ℝ) (hδ : 0 ≤ δ) (hε : 0 ≤ ε) (hsmall : 2 * δ + 2 * ε / c.ka ≤ Real.pi / 2)
    (ms : List SensorMeasurement) (h0 : tiltError (cfRun c j1 j2 ms) v + δ ≤ Real.pi / 2)
    (rounds : List (SensorMeasurement × List (SensorMeasurement × Vector3d))) (h : MovingRounds v δ ε ms rounds) :
    tiltError (cfRun c j1 j2 (ms ++ messages (bare rounds))) (refAt v rounds) ≤
      (1 - c.ka / 2) ^ rounds.length * tiltError (cfRun c j1 j2 ms) v + (δ + 2 * ε / c.ka) := by
  have e : ε / (c.ka / 2) = 2 * ε / c.ka := by field_simp
  rw [← e] at hsmall ⊢
  exact (moving_rounds c hk.le hk1 hki j1 j2 v δ ε (c.ka / 2) (Real.pi / 2) hε (by linarith) (by linarith) (le_refl _)
    (contract_wide c.ka hk.le hk1) hsmall ms h0 hδ rounds h).2

/-- **C114.** The same for a tilt error that is at most half a radian: the factor is `1 - 5k/6` and what is left
`δ + 6 ε / (5 k)`. -/
theorem C114_small (c : CfConfig) (hk : 0 < c.ka) (hk1 : c.ka ≤ 1) (hki : c.ki ≤ CF_DOUBLE_EPSILON) (j1 j2 : SensorType × Int)
    (v : Vector3d) (δ ε : ℝ) (hδ : 0 ≤ δ) (hε : 0 ≤ ε) (hsmall : 2 * δ + 6 * ε / (5 * c.ka) ≤ 1 / 2)
    (ms : List SensorMeasurement) (h0 : tiltError (cfRun c j1 j2 ms) v + δ ≤ 1 / 2)
    (rounds : List (SensorMeasurement × List (SensorMeasurement × Vector3d))) (h : MovingRounds v δ ε ms rounds) :
    tiltError (cfRun c j1 j2 (ms ++ messages (bare rounds))) (refAt v rounds) ≤
      (1 - 5 * c.ka / 6) ^ rounds.length * tiltError (cfRun c j1 j2 ms) v + (δ + 6 * ε / (5 * c.ka)) := by
  have e : ε / (5 * c.ka / 6) = 6 * ε / (5 * c.ka) := by field_simp
  rw [← e] at hsmall ⊢
  exact (moving_rounds c hk.le hk1 hki j1 j2 v δ ε (5 * c.ka / 6) (1 / 2) hε (by linarith) (by linarith)
    (by linarith [Real.pi_gt_three]) (contract_narrow c.ka hk.le hk1) hsmall ms h0 hδ rounds h).2

end Verif.Fusion
