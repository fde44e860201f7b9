import Verif.Nan.Spec
import Verif.Fusion.Props

/-!
# Property theorems for C144: readings that are not numbers
-/

namespace Verif.Nan

open Verif.Fusion (CfConfig)

section
variable {α : Type} {A : Arithmetic α}

/-- All four components are not numbers. -/
def Dead (A : Arithmetic α) (q : Quat α) : Prop := A.nan q.w ∧ A.nan q.x ∧ A.nan q.y ∧ A.nan q.z

theorem dead_mul (h : Propagates A) {q r : Quat α} (hq : Dead A q ∨ Dead A r) : Dead A (qmul A q r) := by
  rcases hq with ⟨h1, h2, h3, h4⟩ | ⟨h1, h2, h3, h4⟩
  · exact ⟨h.sub _ _ (.inr (h.mul _ _ (.inl h4))), h.sub _ _ (.inr (h.mul _ _ (.inl h4))), h.add _ _ (.inr (h.mul _ _ (.inl h4))),
      h.add _ _ (.inr (h.mul _ _ (.inl h4)))⟩
  · exact ⟨h.sub _ _ (.inr (h.mul _ _ (.inr h4))), h.sub _ _ (.inr (h.mul _ _ (.inr h3))), h.add _ _ (.inr (h.mul _ _ (.inr h2))),
      h.add _ _ (.inr (h.mul _ _ (.inr h1)))⟩

/-- A rotation by a bad vector. -/
theorem bad_mul (h : Propagates A) (q : Quat α) {v : Vec α} (hv : Bad A v) : Dead A (qmul A q (ofVec A v)) := by
  have l1 : ∀ a b, A.nan a → A.nan (A.sub a b) := fun a b k => h.sub a b (.inl k)
  have l2 : ∀ a b, A.nan b → A.nan (A.sub a b) := fun a b k => h.sub a b (.inr k)
  have l3 : ∀ a b, A.nan a → A.nan (A.add a b) := fun a b k => h.add a b (.inl k)
  have l4 : ∀ a b, A.nan b → A.nan (A.add a b) := fun a b k => h.add a b (.inr k)
  have l5 : ∀ a b, A.nan b → A.nan (A.mul a b) := fun a b k => h.mul a b (.inr k)
  rcases hv with k | k | k
  · exact ⟨l1 _ _ (l1 _ _ (l2 _ _ (l5 _ _ k))), l1 _ _ (l3 _ _ (l3 _ _ (l5 _ _ k))), l4 _ _ (l5 _ _ k),
      l3 _ _ (l2 _ _ (l5 _ _ k))⟩
  · exact ⟨l1 _ _ (l2 _ _ (l5 _ _ k)), l2 _ _ (l5 _ _ k), l3 _ _ (l3 _ _ (l1 _ _ (l5 _ _ k))),
      l3 _ _ (l1 _ _ (l4 _ _ (l5 _ _ k)))⟩
  · exact ⟨l2 _ _ (l5 _ _ k), l1 _ _ (l4 _ _ (l5 _ _ k)), l3 _ _ (l3 _ _ (l2 _ _ (l5 _ _ k))),
      l3 _ _ (l1 _ _ (l3 _ _ (l5 _ _ k)))⟩

theorem dead_normalized (h : Propagates A) {q : Quat α} (hq : Dead A q) : Dead A (qnormalized A q) := by
  unfold qnormalized
  dsimp only
  split_ifs
  · obtain ⟨h1, h2, h3, h4⟩ := hq
    exact ⟨h.div _ _ (.inl h1), h.div _ _ (.inl h2), h.div _ _ (.inl h3), h.div _ _ (.inl h4)⟩
  · exact hq

theorem dead_sum (h : Propagates A) {q r : Quat α} (hr : Dead A r) : Dead A (qnormalized A (qadd A q (qscale A r (A.lit 0.5)))) := by
  obtain ⟨h1, h2, h3, h4⟩ := hr
  exact dead_normalized h ⟨h.add _ _ (.inr (h.mul _ _ (.inl h1))), h.add _ _ (.inr (h.mul _ _ (.inl h2))),
    h.add _ _ (.inr (h.mul _ _ (.inl h3))), h.add _ _ (.inr (h.mul _ _ (.inl h4)))⟩

theorem dead_update (h : Propagates A) {q : Quat α} (v : Vec α) (hq : Dead A q) : Dead A (updateQuaternion A q v) :=
  dead_sum h (dead_mul h (.inl hq))

theorem bad_update (h : Propagates A) (q : Quat α) {v : Vec α} (hv : Bad A v) : Dead A (updateQuaternion A q v) :=
  dead_sum h (bad_mul h q hv)

theorem bad_scale (h : Propagates A) (k : α) {v : Vec α} (hv : Bad A v) : Bad A (vscale A k v) := by
  rcases hv with e | e | e
  · exact .inl (h.mul _ _ (.inl e))
  · exact .inr (.inl (h.mul _ _ (.inl e)))
  · exact .inr (.inr (h.mul _ _ (.inl e)))

theorem bad_add (h : Propagates A) {v : Vec α} (w : Vec α) (hv : Bad A v) : Bad A (vadd A v w) := by
  rcases hv with e | e | e
  · exact .inl (h.add _ _ (.inl e))
  · exact .inr (.inl (h.add _ _ (.inl e)))
  · exact .inr (.inr (h.add _ _ (.inl e)))

theorem bad_cross (h : Propagates A) {v : Vec α} (w : Vec α) (hv : Bad A v) : Bad A (cross A v w) := by
  rcases hv with e | e | e
  · exact .inr (.inl (h.sub _ _ (.inr (h.mul _ _ (.inl e)))))
  · exact .inl (h.sub _ _ (.inl (h.mul _ _ (.inl e))))
  · exact .inl (h.sub _ _ (.inr (h.mul _ _ (.inl e))))

theorem bad_normalized (h : Propagates A) {v : Vec α} (hv : Bad A v) : Bad A (vnormalized A v) := by
  unfold vnormalized
  dsimp only
  split_ifs
  · rcases hv with e | e | e
    · exact .inl (h.div _ _ (.inl e))
    · exact .inr (.inl (h.div _ _ (.inl e)))
    · exact .inr (.inr (h.div _ _ (.inl e)))
  · exact hv

theorem bad_magnitude (h : Propagates A) {v : Vec α} (hv : Bad A v) : A.nan (magnitude A v) := by
  apply h.sqrt
  rcases hv with e | e | e
  · exact h.add _ _ (.inl (h.add _ _ (.inl (h.mul _ _ (.inl e)))))
  · exact h.add _ _ (.inl (h.add _ _ (.inr (h.mul _ _ (.inl e)))))
  · exact h.add _ _ (.inr (h.mul _ _ (.inl e)))

theorem dead_euler (h : Propagates A) {q : Quat α} (hq : Dead A q) : Lost A (toEuler A q) := by
  obtain ⟨h1, h2, h3, h4⟩ := hq
  have hp : A.nan (A.mul (A.lit 2) (A.sub (A.mul q.w q.y) (A.mul q.z q.x))) := h.mul _ _ (.inr (h.sub _ _ (.inl (h.mul _ _ (.inl h1)))))
  refine ⟨h.atan2 _ _ (.inl (h.mul _ _ (.inr (h.add _ _ (.inl (h.mul _ _ (.inl h1))))))), ?_,
    h.atan2 _ _ (.inl (h.mul _ _ (.inr (h.add _ _ (.inl (h.mul _ _ (.inl h1)))))))⟩
  unfold toEuler
  dsimp only
  rw [if_neg (h.le _ _ (.inr (h.abs _ hp)))]
  exact h.asin _ hp

theorem nan_wrap (h : Propagates A) {a : α} (k : A.nan a) : A.nan (A.wrap a) := by
  rw [h.wrap _ (h.le _ _ (.inr k)) (h.lt _ _ (.inl k))]
  exact k

theorem dead_azimuth (h : Propagates A) {q : Quat α} (hq : Dead A q) (m : Msr α) : A.nan (magneticAzimuthOf A q m) := by
  have e : Dead A (qmul A (qmul A (qmul A (qnormalized A ⟨A.sin (A.div (toEuler A q).yaw (A.lit 2)), A.lit 0, A.lit 0,
      A.cos (A.div (toEuler A q).yaw (A.lit 2))⟩) q) (ofVec A (vnormalized A m.values)))
      (conj A (qmul A (qnormalized A ⟨A.sin (A.div (toEuler A q).yaw (A.lit 2)), A.lit 0, A.lit 0,
      A.cos (A.div (toEuler A q).yaw (A.lit 2))⟩) q))) := dead_mul h (.inl (dead_mul h (.inl (dead_mul h (.inr hq)))))
  exact nan_wrap h (h.add _ _ (.inr (h.atan2 _ _ (.inl e.2.2.1))))

/-- Once lost, the orientation stays lost. -/
theorem dead_step (h : Propagates A) (c : CfConfig) {s : State α} (hs : Dead A s.q) (m : Msr α) : Dead A (update A c s m).q := by
  unfold update
  cases hm : m.type <;> dsimp only
  all_goals first
    | exact hs
    | exact dead_update h _ hs
    | skip
  · split_ifs with hl
    · unfold useMagnetometer
      dsimp only
      split_ifs
      · exact hs
      · exact dead_update h _ hs
    · exact hs
  · split_ifs <;> exact dead_update h _ hs

theorem dead_run (h : Propagates A) (c : CfConfig) {s : State α} (hs : Dead A s.q) (ms : List (Msr α)) : Dead A (run A c s ms).q := by
  unfold run
  induction ms generalizing s with
  | nil => exact hs
  | cons m ms ih => exact ih (dead_step h c hs m)

/-- A bad reading of a sensor that turns the orientation. -/
theorem bad_step (h : Propagates A) (c : CfConfig) (s : State α) (m : Msr α) (hm : Bad A m.values)
    (ht : Turns (decide (s.lastGyroTs ≠ -1)) m.type) : Dead A (update A c s m).q := by
  unfold update
  cases hty : m.type <;> rw [hty] at ht <;> dsimp only
  all_goals first
    | exact ht.elim
    | skip
  · exact bad_update h _ (bad_scale h _ (bad_cross h _ (bad_normalized h hm)))
  · have hl : s.lastGyroTs = -1 := by simpa [Turns] using ht
    rw [if_pos hl]
    unfold useMagnetometer
    dsimp only
    rw [if_neg (h.lt _ _ (.inl (bad_magnitude h (bad_normalized h hm))))]
    exact bad_update h _ (bad_scale h _ (bad_cross h _ (bad_normalized h hm)))
  · split_ifs <;> exact bad_update h _ (bad_add h _ (bad_scale h _ hm))

theorem heading_step (h : Propagates A) (c : CfConfig) {s : State α} (m : Msr α) (hd : Dead A (update A c s m).q)
    (hh : A.nan s.gyroHeading ∨ m.type = .GYROSCOPE) : A.nan (update A c s m).gyroHeading := by
  by_cases hm : m.type = .GYROSCOPE
  · have e : (update A c s m).gyroHeading = fusedAzimuth A (update A c s m) := by unfold update; rw [hm]; rfl
    rw [e]
    exact h.neg _ (dead_euler h hd).2.2
  · have hh := hh.resolve_right hm
    unfold update
    cases hty : m.type <;> dsimp only
    all_goals first
      | exact hh
      | exact absurd hty hm
      | skip
    split_ifs
    · unfold useMagnetometer
      dsimp only
      split_ifs <;> exact hh
    · exact hh

theorem azimuth_step (h : Propagates A) (c : CfConfig) {s : State α} (m : Msr α) (hd : Dead A (update A c s m).q)
    (hh : A.nan s.magneticAzimuth ∨ m.type = .MAGNETOMETER) : A.nan (update A c s m).magneticAzimuth := by
  by_cases hm : m.type = .MAGNETOMETER
  · have e : (update A c s m).magneticAzimuth = magneticAzimuthOf A (update A c s m).q m := by unfold update; rw [hm]
    rw [e]
    exact dead_azimuth h hd m
  · have hh := hh.resolve_right hm
    unfold update
    cases hty : m.type <;> dsimp only
    all_goals first
      | exact hh
      | exact absurd hty hm
      | skip
    split_ifs <;> exact hh

theorem told_run (h : Propagates A) (c : CfConfig) {s : State α} (hs : Dead A s.q) (ms : List (Msr α)) :
    (A.nan s.gyroHeading ∨ (∃ g ∈ ms, g.type = .GYROSCOPE) → A.nan (run A c s ms).gyroHeading) ∧
    (A.nan s.magneticAzimuth ∨ (∃ g ∈ ms, g.type = .MAGNETOMETER) → A.nan (run A c s ms).magneticAzimuth) := by
  unfold run
  induction ms generalizing s with
  | nil => simp
  | cons m ms ih =>
    have hd := dead_step h c hs m
    obtain ⟨i1, i2⟩ := ih hd
    constructor
    · rintro (k | ⟨g, hg, k⟩)
      · exact i1 (.inl (heading_step h c m hd (.inl k)))
      · rcases List.mem_cons.mp hg with rfl | hg
        · exact i1 (.inl (heading_step h c _ hd (.inr k)))
        · exact i1 (.inr ⟨g, hg, k⟩)
    · rintro (k | ⟨g, hg, k⟩)
      · exact i2 (.inl (azimuth_step h c m hd (.inl k)))
      · rcases List.mem_cons.mp hg with rfl | hg
        · exact i2 (.inl (azimuth_step h c _ hd (.inr k)))
        · exact i2 (.inr ⟨g, hg, k⟩)

/-- **C144.** One reading that is not a number, of a sensor that turns the orientation, spoils the orientation for good: whatever is
sent afterwards, none of the angles the filter tells is ever a number again; from the next gyroscope message on (the bad one included)
neither is the gyroscope heading, and from the next magnetometer message on neither is the magnetic azimuth. -/
theorem C144_lost (h : Propagates A) (c : CfConfig) (s : State α) (m : Msr α) (hm : Bad A m.values)
    (ht : Turns (decide (s.lastGyroTs ≠ -1)) m.type) (later : List (Msr α)) :
    Lost A (orientation A (run A c s (m :: later))) ∧ A.nan (fusedAzimuth A (run A c s (m :: later))) ∧
    ((∃ g ∈ m :: later, g.type = .GYROSCOPE) → A.nan (run A c s (m :: later)).gyroHeading) ∧
    ((∃ g ∈ m :: later, g.type = .MAGNETOMETER) → A.nan (run A c s (m :: later)).magneticAzimuth) := by
  have hd1 := bad_step h c s m hm ht
  have hd : Dead A (run A c s (m :: later)).q := dead_run h c hd1 later
  obtain ⟨t1, t2⟩ := told_run h c hd1 later
  refine ⟨dead_euler h hd, h.neg _ (dead_euler h hd).2.2, ?_, ?_⟩
  · rintro ⟨g, hg, k⟩
    rcases List.mem_cons.mp hg with rfl | hg
    · exact t1 (.inl (heading_step h c _ hd1 (.inr k)))
    · exact t1 (.inr ⟨g, hg, k⟩)
  · rintro ⟨g, hg, k⟩
    rcases List.mem_cons.mp hg with rfl | hg
    · exact t2 (.inl (azimuth_step h c _ hd1 (.inr k)))
    · exact t2 (.inr ⟨g, hg, k⟩)

/-- **C144, the other sensors.** No reading of another sensor, number or not, changes the orientation; and a reading of the
magnetometer, once the gyroscope has sent something, is forgotten at the next one. -/
theorem C144_harmless (c : CfConfig) (s : State α) (m : Msr α) (ht : ¬ Turns (decide (s.lastGyroTs ≠ -1)) m.type) :
    orientation A (update A c s m) = orientation A s ∧ fusedAzimuth A (update A c s m) = fusedAzimuth A s ∧
    (update A c s m).gyroHeading = s.gyroHeading ∧
    (m.type = .MAGNETOMETER → ∀ next : Msr α, next.type = .MAGNETOMETER → update A c (update A c s m) next = update A c s next) := by
  have key : (update A c s m).q = s.q ∧ (update A c s m).gyroHeading = s.gyroHeading := by
    unfold update
    cases hty : m.type <;> rw [hty] at ht <;> dsimp only
    all_goals first
      | exact ⟨rfl, rfl⟩
      | exact absurd trivial ht
      | skip
    have hl : ¬ s.lastGyroTs = -1 := by simpa [Turns] using ht
    rw [if_neg hl]
    exact ⟨rfl, rfl⟩
  refine ⟨by unfold orientation; rw [key.1], by unfold fusedAzimuth; rw [key.1], key.2, fun hm next hn => ?_⟩
  rw [hm] at ht
  have hl : ¬ s.lastGyroTs = -1 := by simpa [Turns] using ht
  unfold update
  rw [hm, hn]
  dsimp only
  rw [if_neg hl, if_neg hl, if_neg hl]

end

/-! ## Exact numbers -/

theorem nan_iff (a : Option ℝ) : exact.nan a ↔ a = none := Iff.rfl

theorem exact_wrap (a : Option ℝ) (h1 : ¬ exact.le (exact.lit Real.pi) a) (h2 : ¬ exact.lt a (exact.lit (-Real.pi))) : exact.wrap a = a := by
  cases a with
  | none => rfl
  | some x =>
    have h1 : ¬ Real.pi ≤ x := h1
    have h2 : ¬ x < -Real.pi := h2
    have l1 : ∀ n, Fusion.subLoop n x = x := by intro n; cases n <;> simp [Fusion.subLoop, h1]
    have l2 : ∀ n, Fusion.addLoop n x = x := by intro n; cases n <;> simp [Fusion.addLoop, h2]
    have e : Fusion.toMinusPiPi x = x := by
      unfold Fusion.toMinusPiPi
      dsimp only
      rw [l1, l2]
    rw [show exact.wrap (some x) = some (Fusion.toMinusPiPi x) from rfl, e]

theorem exact_add (a b : Option ℝ) (h : exact.nan a ∨ exact.nan b) : exact.nan (exact.add a b) := by
  simp only [nan_iff] at *
  rcases h with rfl | rfl
  · cases b <;> rfl
  · cases a <;> rfl

theorem exact_sub (a b : Option ℝ) (h : exact.nan a ∨ exact.nan b) : exact.nan (exact.sub a b) := by
  simp only [nan_iff] at *
  rcases h with rfl | rfl
  · cases b <;> rfl
  · cases a <;> rfl

theorem exact_mul (a b : Option ℝ) (h : exact.nan a ∨ exact.nan b) : exact.nan (exact.mul a b) := by
  simp only [nan_iff] at *
  rcases h with rfl | rfl
  · cases b <;> rfl
  · cases a <;> rfl

theorem exact_div (a b : Option ℝ) (h : exact.nan a ∨ exact.nan b) : exact.nan (exact.div a b) := by
  simp only [nan_iff] at *
  rcases h with rfl | rfl
  · cases b <;> rfl
  · cases a <;> rfl

theorem exact_atan2 (a b : Option ℝ) (h : exact.nan a ∨ exact.nan b) : exact.nan (exact.atan2 a b) := by
  simp only [nan_iff] at *
  rcases h with rfl | rfl
  · cases b <;> rfl
  · cases a <;> rfl

theorem exact_lt (a b : Option ℝ) (h : exact.nan a ∨ exact.nan b) : ¬ exact.lt a b := by
  simp only [nan_iff] at *
  rcases h with rfl | rfl
  · cases b <;> exact fun h => h
  · cases a <;> exact fun h => h

theorem exact_le (a b : Option ℝ) (h : exact.nan a ∨ exact.nan b) : ¬ exact.le a b := by
  simp only [nan_iff] at *
  rcases h with rfl | rfl
  · cases b <;> exact fun h => h
  · cases a <;> exact fun h => h

theorem exact_propagates : Propagates exact where
  add := exact_add
  sub := exact_sub
  mul := exact_mul
  div := exact_div
  neg a h := by rw [(nan_iff a).mp h]; rfl
  abs a h := by rw [(nan_iff a).mp h]; rfl
  sqrt a h := by rw [(nan_iff a).mp h]; rfl
  sin a h := by rw [(nan_iff a).mp h]; rfl
  cos a h := by rw [(nan_iff a).mp h]; rfl
  asin a h := by rw [(nan_iff a).mp h]; rfl
  atan2 := exact_atan2
  log a h := by rw [(nan_iff a).mp h]; rfl
  lt := exact_lt
  le := exact_le
  wrap := exact_wrap

/-- Numbers as exact numbers. -/
def ofV (v : Vector3d) : Vec (Option ℝ) := ⟨some v.x, some v.y, some v.z⟩

def ofQ (q : Fusion.Quat) : Quat (Option ℝ) := ⟨some q.w, some q.x, some q.y, some q.z⟩

def ofM (m : SensorMeasurement) : Msr (Option ℝ) := ⟨m.data.type, ofV m.data.values, m.ts⟩

def ofS (s : Fusion.CfState) : State (Option ℝ) :=
  ⟨s.currentTs, s.lastGyroTs, s.lastDeviceAzimuthTs, ofV s.integralError, ofQ s.q, some s.magneticAzimuth, some s.deviceAzimuth,
    some s.gyroHeading⟩

@[simp] theorem e_lit (x : ℝ) : exact.lit x = some x := rfl
@[simp] theorem e_add (x y : ℝ) : exact.add (some x) (some y) = some (x + y) := rfl
@[simp] theorem e_sub (x y : ℝ) : exact.sub (some x) (some y) = some (x - y) := rfl
@[simp] theorem e_mul (x y : ℝ) : exact.mul (some x) (some y) = some (x * y) := rfl
theorem e_div (x : ℝ) {y : ℝ} (h : y ≠ 0) : exact.div (some x) (some y) = some (x / y) := if_neg h
@[simp] theorem e_neg (x : ℝ) : exact.neg (some x) = some (-x) := rfl
@[simp] theorem e_abs (x : ℝ) : exact.abs (some x) = some |x| := rfl
@[simp] theorem e_sin (x : ℝ) : exact.sin (some x) = some (Real.sin x) := rfl
@[simp] theorem e_cos (x : ℝ) : exact.cos (some x) = some (Real.cos x) := rfl
@[simp] theorem e_atan2 (y x : ℝ) : exact.atan2 (some y) (some x) = some (Fusion.atan2 y x) := rfl
@[simp] theorem e_wrap (x : ℝ) : exact.wrap (some x) = some (Fusion.toMinusPiPi x) := rfl
theorem e_sqrt {x : ℝ} (h : 0 ≤ x) : exact.sqrt (some x) = some (Real.sqrt x) := if_neg (not_lt.mpr h)
theorem e_lt (x y : ℝ) : exact.lt (some x) (some y) ↔ x < y := Iff.rfl
theorem e_le (x y : ℝ) : exact.le (some x) (some y) ↔ x ≤ y := Iff.rfl

theorem e_magnitude (v : Vector3d) : magnitude exact (ofV v) = some (Pedo.magnitude v) := by
  unfold magnitude ofV
  simp only [e_mul, e_add]
  rw [e_sqrt (by nlinarith [mul_self_nonneg v.x, mul_self_nonneg v.y, mul_self_nonneg v.z])]
  rfl

theorem e_vnormalized (v : Vector3d) : vnormalized exact (ofV v) = ofV (Fusion.vnormalized v) := by
  rw [Fusion.vnormalized_eq]
  unfold vnormalized
  dsimp only
  rw [e_magnitude, e_lit, e_abs]
  by_cases h : |Pedo.magnitude v| > Fusion.EPSILON
  · have h0 : Pedo.magnitude v ≠ 0 := by
      intro e
      rw [e, abs_zero] at h
      linarith [Fusion.epsilon_pos]
    rw [if_pos ((e_lt _ _).mpr h), if_pos h]
    simp only [ofV, e_div _ h0]
  · rw [if_neg (mt (e_lt _ _).mp h), if_neg h]

theorem e_scale (k : ℝ) (v : Vector3d) : vscale exact (some k) (ofV v) = ofV (Fusion.vscale k v) := rfl

theorem e_vadd (a b : Vector3d) : vadd exact (ofV a) (ofV b) = ofV (Fusion.vadd a b) := rfl

theorem e_cross (a b : Vector3d) : cross exact (ofV a) (ofV b) = ofV (Fusion.cross a b) := rfl

theorem e_ofVec (v : Vector3d) : ofVec exact (ofV v) = ofQ (Fusion.Quat.ofVec v) := rfl

theorem e_conj (q : Fusion.Quat) : conj exact (ofQ q) = ofQ q.conj := rfl

theorem e_toVec (q : Fusion.Quat) : toVec (ofQ q) = ofV q.toVec := rfl

theorem e_qmul (q r : Fusion.Quat) : qmul exact (ofQ q) (ofQ r) = ofQ (q.mul r) := rfl

theorem e_qadd (q r : Fusion.Quat) : qadd exact (ofQ q) (ofQ r) = ofQ (q.add r) := rfl

theorem e_qscale (q : Fusion.Quat) (k : ℝ) : qscale exact (ofQ q) (some k) = ofQ (q.scale k) := rfl

theorem e_qnormalized (q : Fusion.Quat) : qnormalized exact (ofQ q) = ofQ q.normalized := by
  rw [Fusion.Quat.normalized_div]
  unfold qnormalized
  dsimp only
  have hn : exact.sqrt (exact.add (exact.add (exact.add (exact.mul (ofQ q).w (ofQ q).w) (exact.mul (ofQ q).x (ofQ q).x))
      (exact.mul (ofQ q).y (ofQ q).y)) (exact.mul (ofQ q).z (ofQ q).z)) =
      some (Real.sqrt (q.w * q.w + q.x * q.x + q.y * q.y + q.z * q.z)) := e_sqrt (by
    nlinarith [mul_self_nonneg q.w, mul_self_nonneg q.x, mul_self_nonneg q.y, mul_self_nonneg q.z])
  rw [hn, e_lit, e_abs]
  generalize Real.sqrt _ = n
  by_cases h : |n| > Fusion.EPSILON
  · have h0 : n ≠ 0 := by
      intro e
      rw [e, abs_zero] at h
      linarith [Fusion.epsilon_pos]
    rw [if_pos ((e_lt _ _).mpr h), if_pos h]
    simp only [ofQ, e_div _ h0]
  · rw [if_neg (mt (e_lt _ _).mp h), if_neg h]

theorem e_update (q : Fusion.Quat) (v : Vector3d) : updateQuaternion exact (ofQ q) (ofV v) = ofQ (Fusion.updateQuaternion q v) := by
  unfold updateQuaternion Fusion.updateQuaternion
  rw [e_ofVec, e_qmul, e_lit, e_qscale, e_qadd, e_qnormalized]

theorem e_euler (q : Fusion.Quat) : toEuler exact (ofQ q) =
    ⟨some (Fusion.toEuler q).1, some (Fusion.toEuler q).2.1, some (Fusion.toEuler q).2.2⟩ := by
  rw [Fusion.toEuler_eq]
  unfold toEuler
  dsimp only
  congr 1
  rw [show exact.mul (exact.lit 2) _ = some (2 * (q.w * q.y - q.z * q.x)) from rfl, e_lit, e_lit, e_abs]
  generalize 2 * (q.w * q.y - q.z * q.x) = x
  by_cases h : |x| ≥ 1
  · rw [if_pos ((e_le _ _).mpr h), if_pos h]
    rw [show exact.copysign (some (Real.pi / 2)) (some x) = some (if x < 0 then -|Real.pi / 2| else |Real.pi / 2|) from rfl,
      abs_of_pos (by positivity)]
  · rw [if_neg (mt (e_le _ _).mp h), if_neg h]
    exact if_pos (not_le.mp h).le

theorem e_integral (c : CfConfig) (v : Vector3d) : integralTerm exact c (ofV v) = ofV (Fusion.integralTerm c v) := by
  unfold integralTerm Fusion.integralTerm
  rw [e_lit, e_lit]
  by_cases h : c.ki > Fusion.CF_DOUBLE_EPSILON
  · rw [if_pos ((e_lt _ _).mpr h), if_pos h, e_scale]
  · rw [if_neg (mt (e_lt _ _).mp h), if_neg h]
    rfl

theorem e_gyroscope (s : Fusion.CfState) (m : SensorMeasurement) :
    useGyroscope exact (ofS s) (ofM m) = ofS (Fusion.updateUsingGyroscope s m) := by
  unfold useGyroscope Fusion.updateUsingGyroscope
  dsimp only
  rw [e_lit, e_lit, e_div _ (by norm_num)]
  rw [show (ofM m).values = ofV m.data.values from rfl, show (ofS s).integralError = ofV s.integralError from rfl,
    show (ofS s).q = ofQ s.q from rfl, e_scale, e_scale, e_vadd, e_update]
  norm_num [ofS, ofM]

theorem e_accelerometer (c : CfConfig) (s : Fusion.CfState) (m : SensorMeasurement) :
    useAccelerometer exact c (ofS s) (ofM m) = ofS (Fusion.updateUsingAccelerometer c s m) := by
  unfold useAccelerometer Fusion.updateUsingAccelerometer
  dsimp only
  rw [show (ofM m).values = ofV m.data.values from rfl, show (ofS s).integralError = ofV s.integralError from rfl,
    show (ofS s).q = ofQ s.q from rfl, e_vnormalized, e_conj,
    show (⟨exact.lit 0, exact.lit 0, exact.lit 0, exact.lit 1⟩ : Quat (Option ℝ)) = ofQ ⟨0, 0, 0, 1⟩ from rfl, e_qmul, e_qmul, e_toVec,
    e_cross, e_integral, e_lit, e_scale, e_vadd, e_update]
  rfl

theorem e_magnetometer (c : CfConfig) (s : Fusion.CfState) (m : SensorMeasurement) :
    useMagnetometer exact c (ofS s) (ofM m) = ofS (Fusion.updateUsingMagnetometer c s m) := by
  unfold useMagnetometer Fusion.updateUsingMagnetometer
  dsimp only
  rw [show (ofM m).values = ofV m.data.values from rfl, show (ofS s).integralError = ofV s.integralError from rfl,
    show (ofS s).q = ofQ s.q from rfl, e_vnormalized, e_magnitude, e_lit]
  by_cases h : Pedo.magnitude (Fusion.vnormalized m.data.values) < Fusion.CF_DOUBLE_EPSILON
  · rw [if_pos ((e_lt _ _).mpr h), if_pos h]
  · rw [if_neg (mt (e_lt _ _).mp h), if_neg h]
    rw [e_ofVec, e_conj, e_qmul, e_qmul, e_toVec]
    generalize ((s.q.mul _).mul s.q.conj).toVec = g
    rw [show (⟨exact.lit 0, exact.sqrt (exact.add (exact.mul (ofV g).y (ofV g).y) (exact.mul (ofV g).x (ofV g).x)), (ofV g).z⟩ :
      Vec (Option ℝ)) = ofV ⟨0, Real.sqrt (g.y * g.y + g.x * g.x), g.z⟩ from by
        have hn : exact.sqrt (exact.add (exact.mul (ofV g).y (ofV g).y) (exact.mul (ofV g).x (ofV g).x)) =
            some (Real.sqrt (g.y * g.y + g.x * g.x)) := e_sqrt (by nlinarith [mul_self_nonneg g.y, mul_self_nonneg g.x])
        rw [hn]
        rfl]
    rw [e_ofVec, e_qmul, e_qmul, e_toVec, e_cross, e_integral, e_lit, e_scale, e_vadd, e_update]
    rfl

theorem e_azimuth (q : Fusion.Quat) (m : SensorMeasurement) :
    magneticAzimuthOf exact (ofQ q) (ofM m) = some (Fusion.calculateMagneticAzimuth q m) := by
  unfold magneticAzimuthOf Fusion.calculateMagneticAzimuth
  dsimp only
  rw [e_euler]
  dsimp only
  rw [e_lit 2, e_div _ (by norm_num), e_sin, e_cos]
  rw [show (⟨some (Real.sin ((Fusion.toEuler q).2.2 / 2)), exact.lit 0, exact.lit 0, some (Real.cos ((Fusion.toEuler q).2.2 / 2))⟩ :
    Quat (Option ℝ)) = ofQ ⟨Real.sin ((Fusion.toEuler q).2.2 / 2), 0, 0, Real.cos ((Fusion.toEuler q).2.2 / 2)⟩ from rfl,
    show (ofM m).values = ofV m.data.values from rfl, e_qnormalized, e_vnormalized, e_ofVec, e_qmul, e_conj, e_qmul, e_qmul, e_toVec]
  rfl

/-- One message. -/
theorem e_step (c : CfConfig) (s : Fusion.CfState) (m : SensorMeasurement) :
    update exact c (ofS s) (ofM m) = ofS (Fusion.cfUpdate c s m) := by
  unfold update Fusion.cfUpdate
  rw [show (ofM m).type = m.data.type from rfl]
  cases m.data.type <;> dsimp only
  all_goals first
    | rfl
    | skip
  · rw [e_accelerometer]
    rfl
  · rw [show (ofS s).lastGyroTs = s.lastGyroTs from rfl]
    split_ifs
    · rw [show ofS s = ofS { s with magnLowPassed := Fusion.lowPassFilter s.magnLowPassed m } from rfl, e_magnetometer]
      rw [show ∀ t : Fusion.CfState, (ofS t).q = ofQ t.q from fun _ => rfl, e_azimuth]
      rfl
    · rw [show (ofS s).q = ofQ s.q from rfl, e_azimuth]
      rfl
  · rw [show (ofS s).lastGyroTs = s.lastGyroTs from rfl]
    have fin : ∀ t : Fusion.CfState, fusedAzimuth exact (ofS t) = some (Fusion.getFusedAzimuth t) := by
      intro t
      unfold fusedAzimuth Fusion.getFusedAzimuth
      rw [show (ofS t).q = ofQ t.q from rfl, e_euler, e_neg]
    split_ifs
    · rw [show (⟨(ofS s).currentTs, (ofM m).ts, (ofS s).lastDeviceAzimuthTs, (ofS s).integralError, (ofS s).q, (ofS s).magneticAzimuth,
        (ofS s).deviceAzimuth, (ofS s).gyroHeading⟩ : State (Option ℝ)) = ofS { s with lastGyroTs := m.ts } from rfl, e_gyroscope, fin]
      rfl
    · rw [e_gyroscope, fin]
      rfl

/-- **C144, numbers.** With exact numbers and readings that are numbers the filter of this model is the filter of C54 to C57 and tells
numbers: the loss of the orientation comes from the bad reading alone. -/
theorem C144_numbers (c : CfConfig) (s : Fusion.CfState) (ms : List SensorMeasurement) :
    run exact c (ofS s) (ms.map ofM) = ofS (ms.foldl (Fusion.cfUpdate c) s) ∧
    ¬ exact.nan (orientation exact (run exact c (ofS s) (ms.map ofM))).yaw := by
  have e : run exact c (ofS s) (ms.map ofM) = ofS (ms.foldl (Fusion.cfUpdate c) s) := by
    unfold run
    induction ms generalizing s with
    | nil => rfl
    | cons m ms ih =>
      rw [List.map_cons, List.foldl_cons, List.foldl_cons, e_step]
      exact ih _
  refine ⟨e, ?_⟩
  rw [e]
  unfold orientation
  rw [show (ofS (ms.foldl (Fusion.cfUpdate c) s)).q = ofQ (ms.foldl (Fusion.cfUpdate c) s).q from rfl, e_euler]
  simp [nan_iff]

/-- **C144** is about possible arithmetics and readings: two good readings leave an orientation, a reading of the gyroscope with one
value that is not a number loses it, and no later reading brings it back. -/
example (c : CfConfig) (j1 j2 : SensorType × Int) (good : List SensorMeasurement) (later : List (Msr (Option ℝ))) :
    let good := ofM ⟨⟨.ACCELEROMETER, ⟨0, 0, 9.8⟩⟩, 1⟩ :: good.map ofM
    let bad : Msr (Option ℝ) := ⟨.GYROSCOPE, ⟨some 0, none, some 0.1⟩, 1000⟩
    ¬ exact.nan (orientation exact (run exact c (ofS (Fusion.cfInit j1 j2)) good)).yaw ∧
    exact.nan (orientation exact (run exact c (ofS (Fusion.cfInit j1 j2)) (good ++ bad :: later))).yaw := by
  dsimp only
  constructor
  · exact (C144_numbers c _ (⟨⟨.ACCELEROMETER, ⟨0, 0, 9.8⟩⟩, 1⟩ :: good)).2
  · unfold run
    rw [List.foldl_append]
    exact (C144_lost exact_propagates c _ ⟨.GYROSCOPE, ⟨some 0, none, some 0.1⟩, 1000⟩ (.inr (.inl rfl)) trivial later).1.2.2

end Verif.Nan
