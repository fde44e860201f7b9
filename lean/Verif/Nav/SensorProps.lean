import Verif.Nav.StateProps
import Verif.Fusion.OrientProps
import Verif.Nav.Examples

/-!
# Property theorems about the messages the client processes: C99
-/

namespace Verif.Nav

open Verif.Levels
open Verif.Knn (Result)
open Verif.Fusion (fusionRun cfRun MotionInfo alignment direction)

/-! ## Specification -/

/-- What the sensor fusion is given for the messages `ms`: for every message, of any kind, the last sensor message so
far, and the time of the message. -/
def fedSensors (g : SensorMeasurement) (ms : List Measurement) : List (SensorMeasurement × Int) :=
  ms.zipIdx.map (fun p : Measurement × ℕ => (lastSensor g (ms.take (p.2 + 1)), p.1.ts))

/-- A radio message that the map and the settings do not admit. -/
def Foreign (ls : List Level) (cs : CommonSettings) (m : Measurement) : Prop :=
  ∃ d, m.data = .radio d ∧ ¬ Radio.Admissible ls cs d

/-- The messages are the same, or two foreign radio messages of the same time. -/
def SameButForeign (ls : List Level) (cs : CommonSettings) (m m' : Measurement) : Prop :=
  m = m' ∨ (Foreign ls cs m ∧ Foreign ls cs m' ∧ m.ts = m'.ts)

/-! ## Proofs -/

theorem fedSensors_snoc (g : SensorMeasurement) (ms : List Measurement) (m : Measurement) :
    fedSensors g (ms ++ [m]) = fedSensors g ms ++ [(lastSensor g (ms ++ [m]), m.ts)] := by
  unfold fedSensors
  rw [List.zipIdx_append, List.map_append]
  congr 1
  · apply List.map_congr_left
    intro p hp
    have := List.snd_lt_of_mem_zipIdx hp
    rw [List.take_append_of_le_length (by omega)]
  · have : List.take (ms.length + 1) (ms ++ [m]) = ms ++ [m] := List.take_of_length_le (by simp)
    simp [this]

theorem fed_runs {c : Cfg} {g : Garbage} (ms : List Measurement) {s : State} {outs : List (Output × DebugState)}
    (h : runs c (init c g) ms = .ok (s, outs)) :
    ∃ infos, fusionRun c.fusion g.magn g.accel (fedSensors g.sensor ms) = some (s.fusion, infos) ∧
      s.pre.sensor = lastSensor g.sensor ms ∧
      outs.map (fun o => (o.2.stepCounter, o.2.stepLen)) = infos.map (fun i => (i.stepCounter, i.distance)) := by
  induction ms using List.reverseRecOn generalizing s outs with
  | nil => cases h; exact ⟨[], rfl, rfl, rfl⟩
  | append_singleton ms m ih =>
    obtain ⟨s1, outs1, r, h1, h2, rfl⟩ := runs_snoc h
    obtain ⟨infos, i1, i2, i3⟩ := ih h1
    unfold step at h2
    obtain ⟨x, h5, h6⟩ := andThen_ok h2
    obtain ⟨l, h7, h8⟩ := andThen_ok h6
    obtain ⟨out, -, h9⟩ := andThen_ok h8
    cases h9
    obtain ⟨p1, -, -, p4, -⟩ := sense_parts h5
    obtain ⟨f1, f2, -⟩ := locate_frame h7
    have hs : (Radio.updateMeasurements c.pre s1.pre m).sensor = lastSensor g.sensor (ms ++ [m]) := by
      rw [update_sensor, lastSensor_snoc, i2]
    refine ⟨infos ++ [x.info], ?_, ?_, ?_⟩
    · rw [fedSensors_snoc, fusionRun, List.foldlM_append]
      rw [fusionRun] at i1
      rw [i1, ← hs]
      simp only [Option.bind_eq_bind, Option.bind_some, List.foldlM_cons, List.foldlM_nil, Fusion.fusionRecord, p1,
        Option.map_some, f2]
      rfl
    · rw [f1, p4, hs]
    · rw [List.map_append, List.map_append, i3]
      rfl

/-- **C99.** For every client and history, with any memory contents at the start: the sensor fusion is in the state
that its own calls give when it is fed, at every message of any kind, the last sensor message received so far; step
counter and step length of the debug states are those of these calls. So what C57, C58, C90 to C93 and C97 say about
sequences of calls holds for the client, with the sensor messages repeated. -/
theorem C99_sensors (c : Cfg) (g : Garbage) (batches : List (List Measurement))
    {s : State} {outs : List (Output × DebugState)} (h : navigateAll c (init c g) batches = .ok (s, outs)) :
    ∃ infos, fusionRun c.fusion g.magn g.accel (fedSensors g.sensor (taken batches)) = some (s.fusion, infos) ∧
      outs.map (fun o => (o.2.stepCounter, o.2.stepLen)) = infos.map (fun i => (i.stepCounter, i.distance)) ∧
      s.fusion.filter = cfRun c.fusion.cf g.magn g.accel ((fedSensors g.sensor (taken batches)).map Prod.fst) := by
  rw [navigateAll_eq] at h
  obtain ⟨infos, h1, -, h3⟩ := fed_runs _ h
  refine ⟨infos, h1, h3, ?_⟩
  obtain ⟨s', infos', pouts, h4, h5⟩ := Fusion.fusion_inv c.fusion g.magn g.accel (fedSensors g.sensor (taken batches))
  rw [h1] at h4
  cases h4
  exact h5.filter

theorem same_step {ls : List Level} {c : Cfg} (hc : Client ls c) (s : State) {m m' : Measurement}
    (h : SameButForeign ls c.cs m m') : step c s m = step c s m' := by
  rcases h with rfl | ⟨⟨d, hd, hn⟩, ⟨d', hd', hn'⟩, hts⟩
  · rfl
  · have key : ∀ (e : RadioData) (x : Measurement), x.data = .radio e → ¬ Radio.Admissible ls c.cs e →
        Radio.updateMeasurements c.pre s.pre x = { s.pre with currentTs := x.ts } := by
      intro e x hx hne
      obtain ⟨data, ts⟩ := x
      cases hx
      have hh : ¬ Heard ls c.cs ⟨.radio e, ts⟩ := by
        rintro ⟨e', he, ha⟩
        cases he
        exact hne ha
      obtain ⟨h1, h2⟩ := (update_heard hc s.pre ⟨.radio e, ts⟩).2 hh
      have h3 := update_sensor c.pre s.pre ⟨.radio e, ts⟩
      have h4 := update_nmea c.pre s.pre ⟨.radio e, ts⟩
      have h5 : (Radio.updateMeasurements c.pre s.pre ⟨.radio e, ts⟩).currentTs = ts := by
        unfold Radio.updateMeasurements
        dsimp only
        split <;> rfl
      generalize Radio.updateMeasurements c.pre s.pre ⟨.radio e, ts⟩ = st at h1 h2 h3 h4 h5
      cases st
      dsimp only at h1 h2 h3 h4 h5
      rw [h1, h2, h3, h4, h5]
    have : sense c s m = sense c s m' := by
      unfold sense
      rw [key d m hd hn, key d' m' hd' hn', hts]
    unfold step
    rw [this]

theorem same_loop {ls : List Level} {c : Cfg} (hc : Client ls c) (b b' : List Measurement)
    (h : List.Forall₂ (SameButForeign ls c.cs) b b') (s : State) (t : Int) : loop c s t b = loop c s t b' := by
  induction h generalizing s t with
  | nil => rfl
  | @cons m m' b b' hm _ ih =>
    have hts : m.ts = m'.ts := by
      rcases hm with rfl | ⟨-, -, h⟩
      · rfl
      · exact h
    unfold loop
    rw [hts, same_step hc s hm]
    split_ifs
    · exact ih s t
    · congr 1
      funext r
      rw [ih]

/-- **C99.** Radio messages that the map and the settings do not admit (unknown transmitters, signals that are too weak,
kinds that are switched off) count only by their time: exchanging them for other such messages of the same times, in
any batches and any state of the client, changes neither the outputs nor the state. -/
theorem C99_foreign {ls : List Level} {c : Cfg} (hc : Client ls c) (s : State) (batches batches' : List (List Measurement))
    (h : List.Forall₂ (List.Forall₂ (SameButForeign ls c.cs)) batches batches') :
    navigateAll c s batches = navigateAll c s batches' := by
  induction h generalizing s with
  | nil => rfl
  | @cons b b' bs bs' hb _ ih =>
    have h1 : navigate c s b = navigate c s b' := by
      cases hb with
      | nil => rfl
      | @cons m m' l l' hm hl =>
        have hts : m.ts = m'.ts := by
          rcases hm with rfl | ⟨-, -, h⟩
          · rfl
          · exact h
        change loop c s m.ts (m :: l) = loop c s m'.ts (m' :: l')
        rw [hts]
        exact same_loop hc _ _ (.cons hm hl) s m'.ts
    unfold navigateAll
    rw [h1]
    congr 1
    funext r
    rw [ih]

/-- **C99 (finding).** They are not without effect: every message, also a foreign one, makes the client process the last
sensor message once more. Here an accelerometer message shows a device on its side; a foreign radio message after it
turns the orientation further, so that the vertical of the filter comes closer to the measured one. -/
theorem C99_again {ls : List Level} {c : Cfg} (hc : Client ls c) (g : Garbage) (m r : Measurement)
    (hm : m.data = .sensor ⟨.ACCELEROMETER, ⟨9.8, 0, 0⟩⟩) (hr : Foreign ls c.cs r) (ht : m.ts ≤ r.ts) :
    ∃ s1 o1 s2 o2, navigateAll c (init c g) [[m]] = .ok (s1, o1) ∧ navigateAll c (init c g) [[m, r]] = .ok (s2, o2) ∧
      alignment s1.fusion.filter.q ⟨1, 0, 0⟩ < alignment s2.fusion.filter.q ⟨1, 0, 0⟩ := by
  have hrec1 : taken [[m]] = [m] := by
    rw [taken, List.flatMap_singleton, records_ordered _ (by simp [Ordered])]
  have hrec2 : taken [[m, r]] = [m, r] := by
    rw [taken, List.flatMap_singleton, records_ordered _ (by simp [Ordered, ht])]
  obtain ⟨s1, o1, h1, -⟩ := C79_total hc g [[m]]
  obtain ⟨s2, o2, h2, -⟩ := C79_total hc g [[m, r]]
  refine ⟨s1, o1, s2, o2, h1, h2, ?_⟩
  obtain ⟨-, -, -, f1⟩ := C99_sensors c g [[m]] h1
  obtain ⟨-, -, -, f2⟩ := C99_sensors c g [[m, r]] h2
  obtain ⟨d, hd, -⟩ := hr
  have hs1 : lastSensor g.sensor [m] = ⟨⟨.ACCELEROMETER, ⟨9.8, 0, 0⟩⟩, m.ts⟩ := by simp [lastSensor, hm]
  have hs2 : lastSensor g.sensor [m, r] = ⟨⟨.ACCELEROMETER, ⟨9.8, 0, 0⟩⟩, m.ts⟩ := by simp [lastSensor, hm, hd]
  rw [hrec1] at f1
  rw [hrec2] at f2
  have e1 : (fedSensors g.sensor [m]).map Prod.fst = [⟨⟨.ACCELEROMETER, ⟨9.8, 0, 0⟩⟩, m.ts⟩] := by
    simp [fedSensors, hs1]
  have e2 : (fedSensors g.sensor [m, r]).map Prod.fst =
      [⟨⟨.ACCELEROMETER, ⟨9.8, 0, 0⟩⟩, m.ts⟩, ⟨⟨.ACCELEROMETER, ⟨9.8, 0, 0⟩⟩, m.ts⟩] := by
    simp [fedSensors, hs1, hs2]
  rw [e1] at f1
  rw [e2] at f2
  rw [f1, f2]
  have hmag : Pedo.magnitude ⟨9.8, 0, 0⟩ = 9.8 := by
    unfold Pedo.magnitude
    rw [show (9.8 : ℝ) * 9.8 + 0 * 0 + 0 * 0 = 9.8 ^ 2 by norm_num]
    exact Real.sqrt_sq (by norm_num)
  have hdir : direction ⟨9.8, 0, 0⟩ = ⟨1, 0, 0⟩ := by
    unfold direction
    rw [hmag]
    norm_num
  have hka : c.fusion.cf.ka = 0.1 := by rw [hc.parts.fusion]; rfl
  have hv : Fusion.EPSILON < Pedo.magnitude ⟨9.8, 0, 0⟩ := by rw [hmag]; linarith [Fusion.epsilon_lt_one]
  have a0 : alignment (cfRun c.fusion.cf g.magn g.accel []).q ⟨1, 0, 0⟩ = 0 := by
    simp [cfRun, Fusion.cfInit, Fusion.Quat.one, alignment, Fusion.dot, Fusion.toDevice, Fusion.vertical]
  obtain ⟨-, -, b1⟩ := Fusion.C91_cosine c.fusion.cf g.magn g.accel [] ⟨⟨.ACCELEROMETER, ⟨9.8, 0, 0⟩⟩, m.ts⟩ rfl hv 0
    (by rw [hdir]; exact a0)
  obtain ⟨r1, r2, b2⟩ := Fusion.C91_cosine c.fusion.cf g.magn g.accel [⟨⟨.ACCELEROMETER, ⟨9.8, 0, 0⟩⟩, m.ts⟩]
    ⟨⟨.ACCELEROMETER, ⟨9.8, 0, 0⟩⟩, m.ts⟩ rfl hv _ rfl
  rw [hdir, hka] at b1 b2
  rw [hdir] at r1 r2
  simp only [List.nil_append, List.cons_append] at b1 b2
  generalize alignment (cfRun c.fusion.cf g.magn g.accel [⟨⟨.ACCELEROMETER, ⟨9.8, 0, 0⟩⟩, m.ts⟩]).q ⟨1, 0, 0⟩ = x at *
  have hx : x = 1 - (1 - 0.05) ^ 2 / (1 + 0.01 / 4) := by norm_num at b1 ⊢; linarith
  have hx2 : x = 40 / 401 := by rw [hx]; norm_num
  rw [hx2] at b2
  rw [hx2]
  norm_num at b2
  linarith

/-- A signal of an unknown beacon is foreign to the sample client, with any strength and id. -/
theorem ex_foreign (ts : Int) (rssi : ℝ) (id : String) (hid : id ≠ "tx") :
    Foreign [exLevel] exCfg.cs ⟨.radio ⟨.BEACON, id, rssi, 0, 0, 0⟩, ts⟩ := by
  refine ⟨_, rfl, ?_⟩
  rintro ⟨-, -, -, h | ⟨t, ⟨l, h1, h2, -⟩, -⟩⟩
  · cases h
  · have hl := List.mem_of_find?_eq_some h1
    rw [List.mem_singleton] at hl
    rw [hl] at h2
    simp [exLevel, bareLevel, Level.addTransmitters, exTx, StdMap.insert, StdMap.insertSorted] at h2
    exact hid h2.1

/-- Non-vacuity of C99: the sample client, a device on its side, a signal of an unknown beacon a second later; and another
unknown beacon instead of it. -/
example (g : Garbage) :
    let m : Measurement := ⟨.sensor ⟨.ACCELEROMETER, ⟨9.8, 0, 0⟩⟩, 1000⟩
    let r : Measurement := ⟨.radio ⟨.BEACON, "x", -70, 0, 0, 0⟩, 2000⟩
    let r' : Measurement := ⟨.radio ⟨.BEACON, "y", -50, 0, 0, 0⟩, 2000⟩
    (∃ s1 o1 s2 o2, navigateAll exCfg (init exCfg g) [[m]] = .ok (s1, o1) ∧
      navigateAll exCfg (init exCfg g) [[m, r]] = .ok (s2, o2) ∧
      alignment s1.fusion.filter.q ⟨1, 0, 0⟩ < alignment s2.fusion.filter.q ⟨1, 0, 0⟩) ∧
    navigateAll exCfg (init exCfg g) [[m, r]] = navigateAll exCfg (init exCfg g) [[m, r']] := by
  intro m r r'
  refine ⟨C99_again exClient g m r rfl (ex_foreign _ _ _ (by decide)) (by simp [m, r]), ?_⟩
  refine C99_foreign exClient _ _ _ (.cons (.cons (Or.inl rfl) (.cons (Or.inr ⟨?_, ?_, rfl⟩) .nil)) .nil)
  · exact ex_foreign _ _ _ (by decide)
  · exact ex_foreign _ _ _ (by decide)

end Verif.Nav
