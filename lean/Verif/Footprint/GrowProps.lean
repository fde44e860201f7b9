import Verif.Footprint.Props
import Verif.Pedo.Example
import Verif.Nav.Examples

/-!
# C121: a constant bound, and two sessions in which a client keeps more and more
-/

namespace Verif.Footprint

open Verif.Levels Verif.Nav
open Verif.Knn (Result)

/-! ## A constant bound -/

/-- Of the messages, at most `R` fall into any interval of `W` milliseconds. -/
def Rate (ms : List Measurement) (R : ℕ) (W : ℝ) : Prop :=
  ∀ t : ℝ, ((ms.filter (fun m => open Classical in decide (t - W ≤ m.ts ∧ (m.ts : ℝ) ≤ t))).length) ≤ R

/-- At every message, the last sensor message is at most `D` milliseconds old. -/
def SensorsAlive (ms : List Measurement) (D : ℝ) : Prop :=
  ∀ l m r, ms = l ++ m :: r → ∃ e ∈ l ++ [m], (∃ d, e.data = .sensor d) ∧ ((m.ts - e.ts : Int) : ℝ) ≤ D

theorem filter_length_le_of {α β : Type} {p : α → Bool} {q : β → Bool} {f : α → β} (l : List α) (h : ∀ a ∈ l, p a = true → q (f a) = true) :
    (l.filter p).length ≤ ((l.map f).filter q).length := by
  induction l with
  | nil => simp
  | cons a l ih =>
    have i := ih (fun b hb => h b (by simp [hb]))
    rw [List.map_cons, List.filter_cons, List.filter_cons]
    by_cases hp : p a = true
    · rw [if_pos hp, if_pos (h a (by simp) hp)]
      simpa using i
    · rw [if_neg hp]
      split_ifs
      · rw [List.length_cons]; omega
      · exact i

theorem last_sensor_ge (g : SensorMeasurement) {ms : List Measurement} (h : Ordered ms) {e : Measurement} (he : e ∈ ms)
    (hd : ∃ d, e.data = .sensor d) : e.ts ≤ (lastSensor g ms).ts := by
  induction ms using List.reverseRecOn with
  | nil => cases he
  | append_singleton ms m ih =>
    obtain ⟨h1, -, h2⟩ := List.pairwise_append.mp h
    rw [lastSensor_snoc]
    rcases List.mem_append.mp he with he | he
    · have i := ih h1 he
      cases hm : m.data with
      | sensor d => exact h2 e he m (by simp)
      | radio d => exact i
      | nmea d => exact i
    · rw [List.mem_singleton] at he
      subst he
      obtain ⟨d, hd⟩ := hd
      rw [hd]

theorem fed_alive (g : SensorMeasurement) {ms : List Measurement} (h : Ordered ms) {D : ℝ} (hD : SensorsAlive ms D) :
    ∀ p ∈ fedSensors g ms, ((p.2 - p.1.ts : Int) : ℝ) ≤ D := by
  induction ms using List.reverseRecOn with
  | nil => simp [fedSensors]
  | append_singleton ms m ih =>
    obtain ⟨h1, -, -⟩ := List.pairwise_append.mp h
    rw [fedSensors_snoc]
    intro p hp
    rcases List.mem_append.mp hp with hp | hp
    · refine ih h1 (fun l m' r hl => ?_) p hp
      exact hD l m' (r ++ [m]) (by rw [hl]; simp)
    · rw [List.mem_singleton] at hp
      subst hp
      obtain ⟨e, he, hd, hle⟩ := hD ms m [] rfl
      have := last_sensor_ge g h he hd
      refine le_trans (Int.cast_le.mpr ?_) hle
      dsimp only
      omega

/-- The samples that count as recent come with messages in one interval. -/
theorem samples_rate (g : SensorMeasurement) {ms : List Measurement} (h : Orderly ms) {D W w : ℝ} {R : ℕ} (hD : SensorsAlive ms D)
    (hR : Rate ms R W) (hw : w + D ≤ W) : recent (sampleTimes g ms) w ≤ R := by
  classical
  set T := sampleTimes g ms with hT
  cases hl : T.getLast? with
  | none =>
    rw [List.getLast?_eq_none_iff] at hl
    rw [hl]
    simp [recent]
  | some z =>
    refine le_trans ?_ (hR (z + D))
    obtain ⟨f1, -, -⟩ := fed_ordered g h
    have f2 := fed_alive g h.ordered hD
    -- through the pairs handed to the sensor fusion
    have e1 : recent T w = (((fedSensors g ms).filter (fun p => p.1.data.type = .ACCELEROMETER)).filter
        (fun p => decide (((z - p.1.ts : Int) : ℝ) ≤ w))).length := by
      unfold recent
      rw [hl]
      have hT' : T = ((fedSensors g ms).filter (fun p => p.1.data.type = .ACCELEROMETER)).map (fun p => p.1.ts) := by
        rw [hT, sampleTimes, List.filter_map, List.map_map]
        rfl
      rw [hT', List.filter_map, List.length_map]
      congr 1
      apply List.filter_congr
      intro p _
      simp
    have e2 : (ms.filter (fun m => decide ((z : ℝ) + D - W ≤ m.ts ∧ (m.ts : ℝ) ≤ z + D))).length =
        (((fedSensors g ms).map Prod.snd).filter (fun t : Int => decide ((z : ℝ) + D - W ≤ t ∧ (t : ℝ) ≤ z + D))).length := by
      rw [fed_times, List.filter_map, List.length_map]
      rfl
    rw [e1]
    refine le_trans ?_ (le_of_eq e2.symm)
    rw [List.filter_filter]
    refine filter_length_le_of _ (fun p hp hpp => ?_)
    rw [Bool.and_eq_true, decide_eq_true_eq, decide_eq_true_eq] at hpp
    obtain ⟨hp1, hp2⟩ := hpp
    have hzt : p.1.ts ≤ z := by
      have hmem : p.1.ts ∈ T := List.mem_map.mpr ⟨p.1, List.mem_filter.mpr ⟨List.mem_map_of_mem hp, by simpa using hp2⟩, rfl⟩
      have hord : T.Pairwise (· ≤ ·) := by
        rw [hT, sampleTimes, List.pairwise_map]
        exact List.Pairwise.sublist List.filter_sublist (fed_ordered g h).2.2
      obtain ⟨T', hT'⟩ := List.getLast?_eq_some_iff.mp hl
      rw [hT'] at hmem hord
      rcases List.mem_append.mp hmem with hmem | hmem
      · exact (List.pairwise_append.mp hord).2.2 _ hmem z (by simp)
      · rw [List.mem_singleton] at hmem; exact le_of_eq hmem
    have a1 := f2 p hp
    have a2 : ((p.1.ts : Int) : ℝ) ≤ (p.2 : Int) := Int.cast_le.mpr (f1 p hp).2.1
    have a3 : ((p.1.ts : Int) : ℝ) ≤ (z : Int) := Int.cast_le.mpr hzt
    push_cast at hp1 a1
    rw [decide_eq_true_eq]
    constructor <;> linarith

theorem heard_rate {ls : List Level} {cs : CommonSettings} {ms : List Measurement} (h : Ordered ms) {W w : ℝ} {R : ℕ}
    (hR : Rate ms R W) (hw : w ≤ W) : recent (heardTimes ls cs ms) w ≤ R := by
  classical
  set T := heardTimes ls cs ms with hT
  cases hl : T.getLast? with
  | none =>
    rw [List.getLast?_eq_none_iff] at hl
    rw [hl]
    simp [recent]
  | some z =>
    refine le_trans ?_ (hR z)
    have hTle : ∀ t ∈ T, t ≤ z := by
      have hord : T.Pairwise (· ≤ ·) := by
        rw [hT, heardTimes, List.pairwise_map]
        exact List.Pairwise.sublist List.filter_sublist h
      intro t ht
      obtain ⟨T', hT'⟩ := List.getLast?_eq_some_iff.mp hl
      rw [hT'] at ht hord
      rcases List.mem_append.mp ht with ht | ht
      · exact (List.pairwise_append.mp hord).2.2 _ ht z (by simp)
      · rw [List.mem_singleton] at ht; exact le_of_eq ht
    have e1 : recent T w = ((ms.filter (fun m => decide (Heard ls cs m))).filter (fun m => decide (((z - m.ts : Int) : ℝ) ≤ w))).length := by
      unfold recent
      rw [hl, hT, heardTimes, List.filter_map, List.length_map]
      congr 1
      apply List.filter_congr
      intro m _
      simp
    rw [e1, List.filter_filter]
    have := filter_length_le_of (p := fun m => decide (((z - m.ts : Int) : ℝ) ≤ w) && decide (Heard ls cs m))
      (q := fun m : Measurement => decide ((z : ℝ) - W ≤ m.ts ∧ (m.ts : ℝ) ≤ z)) (f := id) ms (fun m hm hp => by
        rw [Bool.and_eq_true, decide_eq_true_eq, decide_eq_true_eq] at hp
        have hmem : m.ts ∈ T := List.mem_map.mpr ⟨m, List.mem_filter.mpr ⟨hm, by simpa using hp.2⟩, rfl⟩
        have a : ((m.ts : Int) : ℝ) ≤ (z : Int) := Int.cast_le.mpr (hTle _ hmem)
        have b := hp.1
        push_cast at b
        rw [decide_eq_true_eq]
        exact ⟨by simp only [id]; linarith, a⟩)
    rwa [List.map_id] at this

/-- **C121.** In all, a client without the detection of stops keeps a bounded number of things, however long it runs: if at most `R`
messages come in any `W` milliseconds and every message comes within `D` milliseconds of a sensor message, it is
`2 R + max 3 R` and a constant of the map and the settings, where `W` covers the averaging time and five seconds and `D`. -/
theorem C121_constant {ls : List Level} {c : Cfg} (hc : Client ls c) (hst : c.cs.useStops = false) (ha : 0 ≤ c.cs.sigAveragingTime)
    (hsh : 0 ≤ c.cs.sigWindowShift) {R : ℕ} {W D : ℝ} (hW1 : 1000 * c.cs.sigAveragingTime ≤ W) (hW2 : 5000 + D ≤ W)
    (g : Garbage) (batches : List (List Measurement)) (hord : Orderly (taken batches)) (hR : Rate (taken batches) R W)
    (hD : SensorsAlive (taken batches) D) {s : State} {outs : List (Output × DebugState)}
    (h : navigateAll c (init c g) batches = .ok (s, outs)) :
    signals s + samples s + magnitudes s + others s ≤ 2 * R + max 3 R + (252 + ls.length + c.cs.sigmaFilterWindow) := by
  have h1 := (C121_signals hc hst ha hsh g batches hord.pos hord.ordered h).trans (heard_rate hord.ordered hR hW1)
  obtain ⟨h2, -, h3⟩ := C121_samples c g batches hord h
  have h4 := samples_rate g.sensor hord hD hR hW2
  have h5 := samples_rate g.sensor hord hD hR (w := 1400) (by linarith)
  have h6 := C121_others hc g batches h
  have h7 : magnitudes s ≤ max 3 R := h3.trans (max_le_max (le_refl _) h5)
  omega

/-! ## Sensors that fall silent -/

theorem fed_stuck (g : SensorMeasurement) {a : Measurement} {v : SensorData} (ha : a.data = .sensor v) (ms : List Measurement)
    (h : ∀ m ∈ ms, ∀ d, m.data ≠ .sensor d) :
    lastSensor g (a :: ms) = ⟨v, a.ts⟩ ∧ (fedSensors g (a :: ms)).map Prod.fst = List.replicate (ms.length + 1) ⟨v, a.ts⟩ := by
  induction ms using List.reverseRecOn with
  | nil =>
    have e : lastSensor g ([] ++ [a]) = ⟨v, a.ts⟩ := by rw [lastSensor_snoc, ha]
    refine ⟨e, ?_⟩
    have : fedSensors g ([] ++ [a]) = fedSensors g [] ++ [(lastSensor g ([] ++ [a]), a.ts)] := fedSensors_snoc _ _ _
    rw [List.nil_append] at this
    rw [this, List.map_append]
    rw [List.nil_append] at e
    rw [e]
    rfl
  | append_singleton ms m ih =>
    obtain ⟨i1, i2⟩ := ih (fun e he => h e (by simp [he]))
    have e : lastSensor g ((a :: ms) ++ [m]) = ⟨v, a.ts⟩ := by
      rw [lastSensor_snoc]
      cases hd : m.data with
      | sensor d => exact absurd hd (h m (by simp) d)
      | radio d => exact i1
      | nmea d => exact i1
    rw [← List.cons_append]
    refine ⟨e, ?_⟩
    rw [fedSensors_snoc, List.map_append, i2, List.length_append, List.length_singleton]
    simp only [List.map_cons, List.map_nil, e]
    rw [← List.replicate_succ']

/-- **C121, finding.** Once the sensors fall silent after an accelerometer sample, the pedometer takes that sample again at every
message and drops nothing, because its time does not change: whatever the messages, one more sample is kept at each of them. -/
theorem C121_silent_sensors {ls : List Level} {c : Cfg} (hc : Client ls c) (g : Garbage) (a : Measurement) (v : Vector3d)
    (ha : a.data = .sensor ⟨.ACCELEROMETER, v⟩) (hpos : 0 < a.ts) (ms : List Measurement) (hms : ∀ m ∈ ms, ∀ d, m.data ≠ .sensor d)
    (hord : Ordered (a :: ms)) (batches : List (List Measurement)) (htk : taken batches = a :: ms) :
    ∃ s outs, navigateAll c (init c g) batches = .ok (s, outs) ∧ samples s = ms.length + 1 ∧ ms.length + 1 ≤ magnitudes s := by
  obtain ⟨s, outs, h, -⟩ := C79_total hc g batches
  have ho : Orderly (taken batches) := by
    rw [htk]
    refine ⟨?_, hord, ?_⟩
    · intro m hm
      rcases List.mem_cons.mp hm with rfl | hm
      · exact hpos
      · exact lt_of_lt_of_le hpos ((List.pairwise_cons.mp hord).1 m hm)
    · intro m hm
      cases hm
      exact ⟨_, ha⟩
  obtain ⟨h1, h2, -⟩ := C121_samples c g batches ho h
  have hT : sampleTimes g.sensor (taken batches) = List.replicate (ms.length + 1) a.ts := by
    rw [htk, sampleTimes, (fed_stuck g.sensor ha ms hms).2, List.filter_replicate]
    simp
  have hrec : ∀ w : ℝ, 0 ≤ w → recent (List.replicate (ms.length + 1) a.ts) w = ms.length + 1 := by
    intro w hw
    unfold recent
    rw [List.getLast?_replicate, if_neg (by omega), List.filter_replicate]
    simp [hw]
  rw [hT] at h1 h2
  rw [hrec _ (by norm_num)] at h1 h2
  exact ⟨s, outs, h, h1, h2⟩

/-! ## Standing still -/

/-- One message, with the motion that is reported at it. -/
theorem motion_step {ls : List Level} {c : Cfg} (hc : Client ls c) {g : Garbage} {ms : List Measurement} {s s' : State}
    {outs : List (Output × DebugState)} (h : runs c (init c g) ms = .ok (s, outs)) {m : Measurement}
    {r : Output × DebugState} (hs : step c s m = .ok (s', r)) :
    ∃ t, s'.pre.buffer = (Radio.extractMeasurements c.env.radioSorts c.pre.buffer (Radio.updateMeasurements c.pre s.pre m).buffer t).2 ∧
      (r.2.stepCounter = 0 → t = 0) ∧ (0 < r.2.stepCounter → t = m.ts) := by
  obtain ⟨-, x, l, hst, hdbg⟩ := sized_step hc (sized_runs hc g ms h) hs
  obtain ⟨e1, -, e3, -⟩ := sense_parts hst.sense
  obtain ⟨f1, -⟩ := locate_frame hst.locate
  obtain ⟨infos, i1, -⟩ := fed_runs _ h
  obtain ⟨s2, infos2, pouts, q1, q2⟩ := Fusion.fusion_inv c.fusion g.magn g.accel (fedSensors g.sensor ms)
  rw [i1, Option.some.injEq, Prod.mk.injEq] at q1
  obtain ⟨rfl, -⟩ := q1
  obtain ⟨s3, i, o, k1, -, k3⟩ := Fusion.fusion_step c.fusion g.magn g.accel _ _ _ _ q2
    (Radio.updateMeasurements c.pre s.pre m).sensor m.ts
  rw [e1, Option.some.injEq, Prod.mk.injEq] at k1
  obtain ⟨-, rfl⟩ := k1
  have hcnt : r.2.stepCounter = x.info.stepCounter := by rw [hdbg]; rfl
  refine ⟨x.info.lastMotionTs, by rw [hst.state, f1, e3]; rfl, fun h0 => ?_, fun h0 => ?_⟩
  · rw [hcnt, k3.counter] at h0
    rw [k3.motion]
    split_ifs at h0 ⊢ with ho
    · rfl
    · exfalso
      have : 0 < o.length := List.length_pos_of_ne_nil ho
      omega
  · rw [hcnt, k3.counter] at h0
    rw [k3.motion]
    split_ifs at h0 ⊢ with ho
    · exact absurd h0 (lt_irrefl _)
    · rfl

theorem extract_step {so : Radio.Sorts} {cfg : Radio.BufferCfg} {b : Radio.BufferState} (t : Int) :
    (Radio.extractMeasurements so cfg b t).2.currentTs = b.currentTs ∧
    (Radio.extractMeasurements so cfg b t).2.lastStepTs = if t > 0 then t else b.lastStepTs := by
  unfold Radio.extractMeasurements
  dsimp only
  split_ifs <;> exact ⟨rfl, rfl⟩

/-- **C121, finding.** With the detection of stops: after the last reported step, and once the stop detection time is over, no signal is
dropped any more, so all the radio messages admitted from then on are kept until the next step. -/
theorem C121_standing {ls : List Level} {c : Cfg} (hc : Client ls c) (hst : c.cs.useStops = true) (h0 : 0 ≤ c.cs.stopDetectionTime)
    (g : Garbage) (batches : List (List Measurement)) (before after : List Measurement) (m : Measurement)
    (htk : taken batches = before ++ m :: after) (hpos : 0 < m.ts) (hord : Ordered (taken batches)) {s : State}
    {o1 o2 : List (Output × DebugState)} {o : Output × DebugState}
    (h : navigateAll c (init c g) batches = .ok (s, o1 ++ o :: o2)) (hlen : o1.length = before.length)
    (hstep : 0 < o.2.stepCounter) (hno : ∀ o' ∈ o2, o'.2.stepCounter = 0) :
    ((heardTimes ls c.cs after).filter (fun t => open Classical in decide (1000 * c.cs.stopDetectionTime < ((t - m.ts : Int) : ℝ)))).length ≤
      signals s := by
  classical
  rw [navigateAll_eq, htk] at h
  rw [htk] at hord
  clear htk
  have hcfg : c.pre.buffer = Radio.createRadioMeasurementBuffer c.cs := by rw [hc.parts.pre]; rfl
  have hus : c.pre.buffer.useStops = true := by rw [hcfg]; exact hst
  have hstop : ∀ t : Int, 1000 * c.cs.stopDetectionTime < (t : ℝ) → c.pre.buffer.stopMs < t := by
    intro t ht
    have : c.pre.buffer.stopMs = Radio.truncToInt (1000 * c.cs.stopDetectionTime) := by rw [hcfg]; rfl
    rw [this]
    unfold Radio.truncToInt
    rw [if_pos (by positivity)]
    exact Int.floor_lt.mpr ht
  set late : List Int → List Int := List.filter (fun t => decide (1000 * c.cs.stopDetectionTime < ((t - m.ts : Int) : ℝ))) with hlate
  -- the invariant
  suffices hinv : s.pre.buffer.lastStepTs = m.ts ∧
      (late (heardTimes ls c.cs after)).Subperm (s.pre.buffer.measurements.map (·.ts)) ∧
      (late (heardTimes ls c.cs after) ≠ [] → 1000 * c.cs.stopDetectionTime < ((s.pre.buffer.currentTs - m.ts : Int) : ℝ)) by
    have := hinv.2.1.length_le
    simpa [signals] using this
  induction after using List.reverseRecOn generalizing s o2 with
  | nil =>
    have e : runs c (init c g) (before ++ [m]) = .ok (s, o1 ++ o :: o2) := h
    obtain ⟨s1, outs1, r, h1, h2, h3⟩ := runs_snoc e
    have hl := runs_length c _ _ _ _ h1
    obtain ⟨-, h4⟩ := List.append_inj h3 (by rw [hlen, hl])
    rw [List.cons.injEq] at h4
    obtain ⟨t, t1, -, t2⟩ := motion_step hc h1 h2
    rw [← h4.1] at t2
    have ht := t2 hstep
    refine ⟨?_, by simp [heardTimes, hlate], by simp [heardTimes, hlate]⟩
    rw [t1, (extract_step t).2, ht, if_pos hpos]
  | append_singleton after m' ih =>
    have e : runs c (init c g) ((before ++ m :: after) ++ [m']) = .ok (s, o1 ++ o :: o2) := by
      rw [← h]; simp
    obtain ⟨s1, outs1, r, h1, h2, h3⟩ := runs_snoc e
    have hl := runs_length c _ _ _ _ h1
    have hl2 := congrArg List.length h3
    simp only [List.length_append, List.length_cons, List.length_nil] at hl hl2
    obtain ⟨o3, ho3⟩ : ∃ o3, o2 = o3 ++ [r] := by
      rcases List.eq_nil_or_concat o2 with rfl | ⟨o3, r', rfl⟩
      · simp at hl2; omega
      · refine ⟨o3, ?_⟩
        rw [List.concat_eq_append] at h3 ⊢
        have : (o1 ++ o :: o3) ++ [r'] = outs1 ++ [r] := by rw [← h3]; simp
        have := (List.append_inj' this rfl).2
        rw [List.cons.injEq] at this
        rw [this.1]
    subst ho3
    have h3' : outs1 = o1 ++ o :: o3 := by
      have : (o1 ++ o :: o3) ++ [r] = outs1 ++ [r] := by rw [← h3]; simp
      exact (List.append_inj' this rfl).1.symm
    subst h3'
    obtain ⟨i1, i2, i3⟩ := ih (hord.sublist (by simp)) h1 (fun o' ho' => hno o' (by simp [ho']))
    obtain ⟨t, t1, t2, -⟩ := motion_step hc h1 h2
    have ht := t2 (hno r (by simp))
    subst ht
    -- the message itself
    have hup : (Radio.updateMeasurements c.pre s1.pre m').buffer.lastStepTs = m.ts ∧
        (late (heardTimes ls c.cs (after ++ [m']))).Subperm ((Radio.updateMeasurements c.pre s1.pre m').buffer.measurements.map (·.ts)) ∧
        (late (heardTimes ls c.cs (after ++ [m'])) ≠ [] →
          1000 * c.cs.stopDetectionTime < (((Radio.updateMeasurements c.pre s1.pre m').buffer.currentTs - m.ts : Int) : ℝ)) := by
      by_cases hh : Heard ls c.cs m'
      · obtain ⟨rm, hr1, hr2⟩ := heard_buffer hc s1.pre hh
        rw [(heardTimes_snoc ls c.cs after m').1 hh, hr2]
        have hadd : (Radio.addMeasurement c.pre.buffer s1.pre.buffer rm).lastStepTs = s1.pre.buffer.lastStepTs ∧
            (Radio.addMeasurement c.pre.buffer s1.pre.buffer rm).measurements.map (·.ts) = s1.pre.buffer.measurements.map (·.ts) ++ [m'.ts] ∧
            (Radio.addMeasurement c.pre.buffer s1.pre.buffer rm).currentTs = m'.ts := by
          unfold Radio.addMeasurement
          dsimp only
          split_ifs <;> simp [hr1]
        rw [hadd.1, hadd.2.1, hadd.2.2]
        have hsplit : late (heardTimes ls c.cs after ++ [m'.ts]) = late (heardTimes ls c.cs after) ++ late [m'.ts] := List.filter_append ..
        rw [hsplit]
        refine ⟨i1, i2.append (List.Sublist.subperm List.filter_sublist), fun hne => ?_⟩
        by_contra hcon
        apply hne
        have e1 : late [m'.ts] = [] := List.filter_eq_nil_iff.mpr (by simpa using hcon)
        have e2 : late (heardTimes ls c.cs after) = [] := by
          refine List.filter_eq_nil_iff.mpr (fun t ht => ?_)
          obtain ⟨e, he, rfl⟩ := heardTimes_mem ht
          have hle : e.ts ≤ m'.ts := by
            have hp : Ordered ((before ++ m :: after) ++ [m']) := by simpa using hord
            exact (List.pairwise_append.mp hp).2.2 e (by simp [he]) m' (by simp)
          have : ((e.ts - m.ts : Int) : ℝ) ≤ ((m'.ts - m.ts : Int) : ℝ) := Int.cast_le.mpr (by omega)
          rw [decide_eq_true_eq]
          linarith
        rw [e1, e2]; rfl
      · rw [(heardTimes_snoc ls c.cs after m').2 hh, ((update_heard hc s1.pre m').2 hh).2]
        exact ⟨i1, i2, i3⟩
    obtain ⟨u1, u2, u3⟩ := hup
    generalize (Radio.updateMeasurements c.pre s1.pre m').buffer = b at t1 u1 u2 u3
    rw [t1, (extract_step 0).1, (extract_step 0).2, if_neg (by omega)]
    refine ⟨u1, ?_, u3⟩
    by_cases hne : late (heardTimes ls c.cs (after ++ [m'])) = []
    · rw [hne]; exact List.nil_subperm
    · by_cases hg : b.currentTs - b.lastExtractionTs < c.pre.buffer.shiftMs
      · rw [Radio.extract_fail _ _ _ _ hg]
        exact u2
      · obtain ⟨r1, -, -⟩ := Radio.C19_retention c.env.radioSorts hc.radioSorts c.pre.buffer b 0 (by omega)
        have hs : Radio.StandingStill c.pre.buffer b 0 :=
          ⟨hus, m.ts, hpos, .inr ⟨le_refl _, u1.symm⟩, hstop _ (u3 hne)⟩
        exact u2.trans ((r1 hs).symm.map _).subperm

/-! ## Concrete sessions -/

/-- The number of steps reported at a message. -/
theorem counter_step {c : Cfg} {g : Garbage} {ms : List Measurement} {m : Measurement} {s : State}
    {outs : List (Output × DebugState)} {r : Output × DebugState} (h : runs c (init c g) (ms ++ [m]) = .ok (s, outs ++ [r])) :
    ∃ p pouts p' o, Pedo.pedoRun (Pedo.fusionOps ((fedSensors g.sensor ms).map Prod.fst)) = some (p, pouts) ∧
      Pedo.pedoRun (Pedo.fusionOps ((fedSensors g.sensor ms).map Prod.fst ++ [lastSensor g.sensor (ms ++ [m])])) =
        some (p', pouts ++ [[], o]) ∧
      r.2.stepCounter = if o = [] then 0 else pouts.flatten.length + o.length := by
  obtain ⟨infos, i1, -, i3⟩ := fed_runs _ h
  obtain ⟨s1, infos1, p, pouts, s2, i, p', o, -, q2, q3, q4, q5⟩ := Fusion.fusion_last c.fusion g.magn g.accel (fedSensors g.sensor ms)
    (lastSensor g.sensor (ms ++ [m])) m.ts
  rw [fedSensors_snoc, q3, Option.some.injEq, Prod.mk.injEq] at i1
  refine ⟨p, pouts, p', o, q2, q4, ?_⟩
  rw [← i1.2, List.map_append, List.map_append] at i3
  have h2 := (List.append_inj' i3 rfl).2
  simp only [List.map_cons, List.map_nil, List.cons.injEq, Prod.mk.injEq, and_true] at h2
  rw [h2.1, q5.counter]

/-- A client that detects stops. -/
noncomputable def stopCfg : Cfg where
  env := exEnv
  cs := { useStops := true }
  levels := collect [exLevel]
  noSignal := 35000
  noAction := 20000
  detector := .transmitters false
  indoor := .zone [("A", -59)] [("A", 10)]
  pre := Radio.mkCfg (collect [exLevel]) { useStops := true }
  fusion := Fusion.fusionConfig { useStops := true }

theorem stopClient : Client [exLevel] stopCfg where
  map := exClient.map
  settings := ⟨fun h => (by cases h), fun h => (by cases h)⟩
  sort := sortsBy_insertionSort _
  radioSorts := Radio.insertionSorts_lawful
  built := by
    refine ⟨[("A", ⟨-59, 10⟩)], ?_⟩
    have hz : Estim.zoneParams [("A", ⟨-59, 10⟩)] (collect [exLevel]) = some ([("A", -59)], [("A", 10)]) := by
      simp [Estim.zoneParams, collect_levels, exLevel, bareLevel, Level.addTransmitters, List.foldlM, StdMap.find?, StdMap.set,
        StdMap.insertSorted]
    unfold mkCfg createPositionEstimator
    rw [if_neg (by simp [stopCfg])]
    have : Estim.zoneParams [("A", ⟨-59, 10⟩)] (collect [exLevel]) = some ([("A", -59)], [("A", 10)]) := hz
    rw [this]
    simp [stopCfg, createLevelEstimator]

/-- A message with an acceleration. -/
def accMessage (ts : Int) (v : ℝ) : Measurement := ⟨.sensor (Pedo.acc ts v).data, ts⟩

/-- Three samples at rest. -/
def rest : List Measurement := [accMessage 1000 0, accMessage 1250 0, accMessage 1500 0]

/-- A pressure, and `n` signals of the beacon ten seconds later. -/
noncomputable def wait (n : ℕ) : List Measurement :=
  ⟨.sensor ⟨.BAROMETER, ⟨1000, 0, 0⟩⟩, 1751⟩ :: (List.range n).map (fun k : ℕ => exRadio (10000 + k))

/-- One step, and then waiting. -/
noncomputable def stroll (n : ℕ) : List Measurement := rest ++ accMessage 1750 10 :: wait n

theorem stop_heard (t : Int) : Heard [exLevel] stopCfg.cs (exRadio t) := by
  obtain ⟨d, h1, h2⟩ := ex_heard t
  exact ⟨d, h1, h2⟩

theorem wait_snoc (k : ℕ) : wait (k + 1) = wait k ++ [exRadio (10000 + k)] := by simp [wait, List.range_succ]

theorem wait_times (k : ℕ) : (∀ m ∈ wait k, 1750 ≤ m.ts ∧ m.ts ≤ 10000 + k) ∧ Ordered (wait k) ∧
    heardTimes [exLevel] stopCfg.cs (wait k) = (List.range k).map (fun i : ℕ => (10000 + i : Int)) := by
  induction k with
  | zero =>
    refine ⟨by simp [wait], by simp [wait, Ordered], ?_⟩
    have : ¬ Heard [exLevel] stopCfg.cs (⟨.sensor ⟨.BAROMETER, ⟨1000, 0, 0⟩⟩, 1751⟩ : Measurement) := by rintro ⟨d, hd, -⟩; cases hd
    simp [wait, heardTimes, this]
  | succ k ih =>
    obtain ⟨i1, i2, i3⟩ := ih
    rw [wait_snoc]
    refine ⟨?_, ?_, ?_⟩
    · intro m hm
      rcases List.mem_append.mp hm with hm | hm
      · have := i1 m hm; push_cast; omega
      · rw [List.mem_singleton] at hm; subst hm; push_cast; simp only [exRadio]; omega
    · refine List.pairwise_append.mpr ⟨i2, by simp, fun a ha b hb => ?_⟩
      rw [List.mem_singleton] at hb
      subst hb
      exact (i1 a ha).2
    · rw [(heardTimes_snoc _ _ _ _).1 (stop_heard _), i3, List.range_succ, List.map_append]
      rfl

theorem wait_sensor (g : SensorMeasurement) (l : List Measurement) (k : ℕ) :
    (lastSensor g (l ++ wait k)).data.type = .BAROMETER := by
  induction k with
  | zero =>
    have : wait 0 = [⟨.sensor ⟨.BAROMETER, ⟨1000, 0, 0⟩⟩, 1751⟩] := rfl
    rw [this, lastSensor_snoc]
  | succ k ih =>
    rw [wait_snoc, ← List.append_assoc, lastSensor_snoc]
    exact ih

theorem stroll_ordered (n : ℕ) : Ordered (stroll n) := by
  obtain ⟨h1, h2, -⟩ := wait_times n
  refine List.pairwise_append.mpr ⟨by simp [rest, accMessage], List.pairwise_cons.mpr ⟨fun a ha => (h1 a ha).1, h2⟩, ?_⟩
  intro a ha b hb
  have ha' : a.ts ≤ 1750 := by
    simp only [rest, List.mem_cons, List.not_mem_nil, or_false] at ha
    rcases ha with rfl | rfl | rfl <;> simp [accMessage]
  rcases List.mem_cons.mp hb with rfl | hb
  · exact ha'
  · exact ha'.trans (h1 b hb).1

/-- **C121** is about possible sessions: after one step, a client that detects stops keeps each of `n` signals, for every `n`. -/
theorem C121_stroll (n : ℕ) (g : Garbage) :
    ∃ s outs, navigateAll stopCfg (init stopCfg g) [stroll n] = .ok (s, outs) ∧ n ≤ signals s := by
  obtain ⟨s, outs, h, hl⟩ := C79_total stopClient g [stroll n]
  refine ⟨s, outs, h, ?_⟩
  have htk : taken [stroll n] = rest ++ accMessage 1750 10 :: wait n := by
    simp only [taken, List.flatMap_cons, List.flatMap_nil, List.append_nil]
    exact records_ordered _ (stroll_ordered n)
  have hr := h
  rw [navigateAll_eq, htk] at hr
  -- the walk
  have hsplit : ∀ k, ∀ {s' : State} {o : List (Output × DebugState)},
      runs stopCfg (init stopCfg g) (rest ++ accMessage 1750 10 :: wait k) = .ok (s', o) →
      ∃ o1 r o2, o = o1 ++ r :: o2 ∧ o1.length = rest.length ∧ 0 < r.2.stepCounter ∧ ∀ o' ∈ o2, o'.2.stepCounter = 0 := by
    intro k
    -- a message after which the last sensor message is the pressure
    have quiet : ∀ {ms : List Measurement} {m : Measurement} {s' : State} {o : List (Output × DebugState)} {r : Output × DebugState},
        runs stopCfg (init stopCfg g) (ms ++ [m]) = .ok (s', o ++ [r]) → (lastSensor g.sensor (ms ++ [m])).data.type = .BAROMETER →
        r.2.stepCounter = 0 := by
      intro ms m s' o r hrun hb
      obtain ⟨p, pouts, p', oo, k1, k2, k3⟩ := counter_step hrun
      obtain ⟨p2, k4⟩ := Pedo.C77_other _ (lastSensor g.sensor (ms ++ [m])) (by rw [hb]; decide) p pouts k1
      rw [k2, Option.some.injEq, Prod.mk.injEq] at k4
      have := (List.append_inj' k4.2 rfl).2
      simp only [List.cons.injEq, and_true, true_and] at this
      rw [k3, if_pos this]
    induction k with
    | zero =>
      intro s' o hrun
      have e : runs stopCfg (init stopCfg g) ((rest ++ [accMessage 1750 10]) ++ wait 0) = .ok (s', o) := by
        rw [← hrun]; simp
      obtain ⟨s1, u1, r1, v1, v2, rfl⟩ := runs_snoc e
      have e0 : runs stopCfg (init stopCfg g) ((rest ++ [accMessage 1750 10]) ++ wait 0) = .ok (s', u1 ++ [r1]) := e
      have z1 := quiet e0 (wait_sensor _ _ 0)
      obtain ⟨s2, u2, r2, w1, -, rfl⟩ := runs_snoc v1
      refine ⟨u2, r2, [r1], by simp, runs_length _ _ _ _ _ w1, ?_, by simpa using z1⟩
      obtain ⟨p, pouts, p', oo, k1, k2, k3⟩ := counter_step v1
      have hfed : (fedSensors g.sensor rest).map Prod.fst = [Pedo.acc 1000 0, Pedo.acc 1250 0, Pedo.acc 1500 0] := rfl
      have hlast : lastSensor g.sensor (rest ++ [accMessage 1750 10]) = Pedo.acc 1750 10 := rfl
      rw [hfed, hlast] at k2
      obtain ⟨q, qo, j1, len, bef, j2, -⟩ := Pedo.walk_one_step
      rw [k2, Option.some.injEq, Prod.mk.injEq] at j1
      rw [← j1.2] at j2
      have := (List.append_inj' j2 rfl).2
      simp only [List.cons.injEq, and_true, true_and] at this
      rw [k3, this, if_neg (by simp)]
      simp
    | succ k ih =>
      intro s' o hrun
      have e : runs stopCfg (init stopCfg g) ((rest ++ accMessage 1750 10 :: wait k) ++ [exRadio (10000 + k)]) = .ok (s', o) := by
        rw [← hrun, wait_snoc]; simp
      obtain ⟨s1, u1, r1, v1, v2, rfl⟩ := runs_snoc e
      obtain ⟨o1, r, o2, rfl, e2, e3, e4⟩ := ih v1
      refine ⟨o1, r, o2 ++ [r1], by simp, e2, e3, fun o' ho' => ?_⟩
      rcases List.mem_append.mp ho' with ho' | ho'
      · exact e4 o' ho'
      · rw [List.mem_singleton] at ho'
        subst ho'
        refine quiet e ?_
        have := wait_sensor g.sensor (rest ++ [accMessage 1750 10]) (k + 1)
        rw [wait_snoc] at this
        simpa using this
  obtain ⟨o1, r, o2, rfl, e2, e3, e4⟩ := hsplit n hr
  refine le_trans (le_of_eq ?_) (C121_standing stopClient rfl (by simp [stopCfg]) g [stroll n] rest (wait n) (accMessage 1750 10) htk
    (by simp [accMessage]) (by rw [htk]; exact stroll_ordered n) h e2 e3 e4)
  rw [(wait_times n).2.2, List.filter_eq_self.mpr, List.length_map, List.length_range]
  intro t ht
  obtain ⟨i, -, rfl⟩ := List.mem_map.mp ht
  have : ((3000 : Int) : ℝ) < ((10000 + i - (accMessage 1750 10).ts : Int) : ℝ) := Int.cast_lt.mpr (by simp only [accMessage]; omega)
  rw [decide_eq_true_eq]
  have e3 : stopCfg.cs.stopDetectionTime = 3 := rfl
  rw [e3]
  push_cast at this ⊢
  linarith

/-- **C121** is about possible sessions: an accelerometer sample and `n` signals, in order; sensors that are alive. -/
example (n : ℕ) : Ordered (accMessage 1000 1 :: (List.range n).map (fun k : ℕ => exRadio (1001 + k))) ∧
    (∀ m ∈ (List.range n).map (fun k : ℕ => exRadio (1001 + k)), ∀ d, m.data ≠ .sensor d) ∧
    exCfg.cs.useStops = false ∧ 0 ≤ exCfg.cs.sigAveragingTime ∧ 0 ≤ exCfg.cs.sigWindowShift ∧
    Orderly [accMessage 1000 1, exRadio 1500, accMessage 2000 1] ∧ Rate [accMessage 1000 1, exRadio 1500, accMessage 2000 1] 3 6000 ∧
    SensorsAlive [accMessage 1000 1, exRadio 1500, accMessage 2000 1] 1000 := by
  refine ⟨?_, ?_, rfl, by simp [exCfg], by simp [exCfg], ⟨?_, ?_, ?_⟩, ?_, ?_⟩
  · refine List.pairwise_cons.mpr ⟨?_, ?_⟩
    · intro m hm
      obtain ⟨k, -, rfl⟩ := List.mem_map.mp hm
      simp only [accMessage, exRadio]; omega
    · rw [List.pairwise_map]
      exact List.Pairwise.imp (fun {a b} h => by simp only [exRadio]; omega) List.pairwise_lt_range
  · intro m hm d hd
    obtain ⟨k, -, rfl⟩ := List.mem_map.mp hm
    cases hd
  · simp [accMessage, exRadio]
  · simp [Ordered, accMessage, exRadio]
  · intro m hm; cases hm; exact ⟨_, rfl⟩
  · intro t; exact List.length_filter_le _ _
  · intro l m r h
    rcases l with _ | ⟨a, _ | ⟨b, _ | ⟨c, l⟩⟩⟩
    · simp only [List.nil_append, List.cons.injEq] at h
      obtain ⟨rfl, -⟩ := h
      exact ⟨accMessage 1000 1, by simp, ⟨_, rfl⟩, by norm_num⟩
    · simp only [List.cons_append, List.nil_append, List.cons.injEq] at h
      obtain ⟨rfl, rfl, -⟩ := h
      exact ⟨accMessage 1000 1, by simp, ⟨_, rfl⟩, by simp [accMessage, exRadio]; norm_num⟩
    · simp only [List.cons_append, List.nil_append, List.cons.injEq] at h
      obtain ⟨rfl, rfl, rfl, -⟩ := h
      exact ⟨accMessage 2000 1, by simp, ⟨_, rfl⟩, by norm_num⟩
    · simp at h

end Verif.Footprint
