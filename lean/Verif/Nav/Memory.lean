import Verif.Nav.StateProps

/-!
# Property theorems for the navigation client: C82, the initial contents of the memory
-/

namespace Verif.Nav

open Verif.Levels
open Verif.Knn (Result)

/-- Two states that differ only in uninitialised memory. -/
structure Sim (s s' : State) : Prop where
  rest : s' = { s with pre := s'.pre, fusion := s'.fusion }
  buffer : s'.pre.buffer = s.pre.buffer
  fusion : Fusion.SameFusion s.fusion s'.fusion
  signal : s'.pre.lastSignalTs = s.pre.lastSignalTs ∨ Deaf s

theorem locateIndoor_graft (c : Cfg) (s : State) (x : Sensed) (lv : Level) (q q' : Radio.State) (f f' : Fusion.FusionState)
    (ht : q'.currentTs = x.pre.currentTs) :
    locateIndoor c { s with pre := q, fusion := f } { x with pre := q', fusion := f' } lv =
      andThen (locateIndoor c s x lv) (fun l => .ok { l with state := { l.state with pre := q', fusion := f' } }) := by
  unfold locateIndoor
  dsimp only
  rw [ht, andThen_assoc]
  congr 1
  funext i
  rw [andThen_assoc]
  congr 1
  funext h
  rw [andThen_assoc]
  rfl

theorem locate_graft (c : Cfg) (s : State) (x : Sensed) (q q' : Radio.State) (f f' : Fusion.FusionState)
    (ht : q'.currentTs = x.pre.currentTs)
    (hl : timedOutLevel c { x with pre := q', fusion := f' } = timedOutLevel c x) :
    locate c { s with pre := q, fusion := f } { x with pre := q', fusion := f' } =
      andThen (locate c s x) (fun l => .ok { l with state := { l.state with pre := q', fusion := f' } }) := by
  unfold locate
  dsimp only
  rw [hl]
  by_cases h1 : hasLevel c.levels (timedOutLevel c x) = true
  · rw [if_pos h1, if_pos h1, andThen_assoc]
    congr 1
    funext lv
    exact locateIndoor_graft c s x lv q q' f f' ht
  · rw [if_neg h1, if_neg h1]
    by_cases h2 : x.outdoorPos.isEmpty = false
    · rw [if_pos h2, if_pos h2]; rfl
    · rw [if_neg h2, if_neg h2]; rfl

/-- Without a fix the NMEA message does not matter. -/
theorem outdoor_nmea (s : CommonSettings) (c : LevelCollector) (st : Estim.OutdoorState) (ts : Int) (m : SensorMeasurement)
    (n n' : NmeaMeasurement) (b : Bool) (h : m.data.type ≠ .LOCATION) :
    Estim.outdoorPosition s c st ts m n b = Estim.outdoorPosition s c st ts m n' b := by
  unfold Estim.outdoorPosition
  have : Estim.extractGpsPosition s ts m = none := by
    unfold Estim.extractGpsPosition
    rw [if_neg h]
  rw [this]

theorem update_buffer (c : Cfg) (st st' : Radio.State) (h : st'.buffer = st.buffer)
    (m : Measurement) :
    (Radio.updateMeasurements c.pre st' m).buffer = (Radio.updateMeasurements c.pre st m).buffer := by
  unfold Radio.updateMeasurements
  dsimp only
  cases hd : m.data with
  | radio d =>
    dsimp only
    split
    · dsimp only
      rw [h]
    · exact h
  | sensor d => exact h
  | nmea d => exact h

theorem sim_step {ls : List Level} {c : Cfg} (hc : Client ls c) {s s' : State} (hi : Inv ls c s) (h : Sim s s') (m : Measurement)
    (hsen : (Radio.updateMeasurements c.pre s'.pre m).sensor = (Radio.updateMeasurements c.pre s.pre m).sensor)
    (hnm : (Radio.updateMeasurements c.pre s'.pre m).nmea = (Radio.updateMeasurements c.pre s.pre m).nmea ∨
      (Radio.updateMeasurements c.pre s.pre m).sensor.data.type ≠ .LOCATION) :
    ∃ t t' r, step c s m = .ok (t, r) ∧ step c s' m = .ok (t', r) ∧ Inv ls c t ∧ Sim t t' := by
  obtain ⟨x, l, out, h1, h2, h3, h4, -, h6, -⟩ := step_defined hc hi m
  obtain ⟨p1, p2, p3, p4, p5, p6, p7, ⟨d, p8, p9⟩, p10⟩ := sense_parts h1
  obtain ⟨f', q1, q2⟩ := Fusion.displacement_same c.fusion s.fusion s'.fusion h.fusion _ _ p1
  set pre := Radio.updateMeasurements c.pre s.pre m with hpre
  set pre' := Radio.updateMeasurements c.pre s'.pre m with hpre'
  have hts' : pre'.currentTs = m.ts := by
    rw [hpre']
    unfold Radio.updateMeasurements
    dsimp only
    split
    · split <;> rfl
    · rfl
    · rfl
  have hb : pre'.buffer = pre.buffer := update_buffer c s.pre s'.pre h.buffer m
  have he1 : (Radio.extractRadioMeasurements c.env.radioSorts c.pre pre' x.info.lastMotionTs).1 = some x.radio := by
    rw [← p2]
    unfold Radio.extractRadioMeasurements
    dsimp only
    rw [hb]
  set q := (Radio.extractRadioMeasurements c.env.radioSorts c.pre pre' x.info.lastMotionTs).2 with hq
  have hqb : q.buffer = x.pre.buffer := by
    rw [p3, hq]
    unfold Radio.extractRadioMeasurements
    dsimp only
    rw [hb]
  have hqt : q.currentTs = x.pre.currentTs := by rw [p7]; exact hts'
  have hql : q.lastSignalTs = pre'.lastSignalTs := rfl
  have hsense : sense c s' m = .ok { x with pre := q, fusion := f' } := by
    have r1 : s'.level = s.level := by rw [h.rest]
    have r2 : s'.outdoor = s.outdoor := by rw [h.rest]
    have r3 : s'.flagIndoorPos = s.flagIndoorPos := by rw [h.rest]
    have hout : Estim.outdoorPosition c.cs c.levels s.outdoor m.ts pre.sensor pre'.nmea s.flagIndoorPos =
        some (x.outdoorPos, x.outdoor) := by
      rcases hnm with hn | hn
      · rw [hn]; exact p10
      · rw [outdoor_nmea c.cs c.levels s.outdoor m.ts pre.sensor pre'.nmea pre.nmea s.flagIndoorPos hn]; exact p10
    unfold sense
    dsimp only
    rw [← hpre', hts', hsen, q1]
    simp only [orUndefined, andThen]
    rw [he1]
    simp only [orThrow]
    rw [p8]
    simp only
    rw [r1, r2, r3, p9, hout]
  have hsig : q.lastSignalTs = x.pre.lastSignalTs ∨
      (x.levelId = "" ∧ x.pre.buffer.measurements = [] ∧ LevelsOk (· = "") x.level) := by
    rw [hql, p6]
    by_cases hh : Heard ls c.cs m
    · left
      rw [(update_heard hc s'.pre m).1 hh, (update_heard hc s.pre m).1 hh]
    · rcases h.signal with hs | hs
      · left
        rw [((update_heard hc s'.pre m).2 hh).1, ((update_heard hc s.pre m).2 hh).1, hs]
      · right
        exact (deaf_sense hc hs hh h1).2
  have htl : timedOutLevel c { x with pre := q, fusion := f' } = timedOutLevel c x := by
    rcases hsig with hs | ⟨hs, -⟩
    · unfold timedOutLevel
      dsimp only
      rw [hqt, hs]
    · unfold timedOutLevel
      dsimp only
      rw [hs]
      split_ifs <;> rfl
  have hloc := locate_graft c s x s'.pre q s'.fusion f' hqt htl
  rw [← h.rest, h2] at hloc
  simp only [andThen] at hloc
  refine ⟨l.state, { l.state with pre := q, fusion := f' }, (out, debugState x l.state), h4, ?_, h6, ?_⟩
  · unfold step
    rw [hsense]
    simp only [andThen]
    rw [hloc]
    simp only
    have : report c { x with pre := q, fusion := f' } { l with state := { l.state with pre := q, fusion := f' } } = report c x l := rfl
    rw [this, h3]
    rfl
  · obtain ⟨f1, f2, f3, -⟩ := locate_frame h2
    refine ⟨rfl, ?_, ?_, ?_⟩
    · change q.buffer = l.state.pre.buffer
      rw [f1, hqb]
    · change Fusion.SameFusion l.state.fusion f'
      rw [f2]; exact q2
    · change q.lastSignalTs = l.state.pre.lastSignalTs ∨ _
      rw [f1]
      rcases hsig with hs | ⟨-, hs1, hs2⟩
      · exact Or.inl hs
      · exact Or.inr ⟨by rw [f1]; exact hs1, by rw [f3]; exact hs2⟩

/-- The memory contents that are read are the same. -/
def ReadsSame (g g' : Garbage) (ms : List Measurement) : Prop :=
  ∀ a m b, ms = a ++ m :: b → lastSensor g'.sensor (a ++ [m]) = lastSensor g.sensor (a ++ [m]) ∧
    (lastNmea g'.nmea (a ++ [m]) = lastNmea g.nmea (a ++ [m]) ∨ (lastSensor g.sensor (a ++ [m])).data.type ≠ .LOCATION)

theorem sim_runs {ls : List Level} {c : Cfg} (hc : Client ls c) (g g' : Garbage) (ms : List Measurement)
    (h : ReadsSame g g' ms) :
    ∃ s s' outs, runs c (init c g) ms = .ok (s, outs) ∧ runs c (init c g') ms = .ok (s', outs) ∧ Sim s s' := by
  induction ms using List.reverseRecOn with
  | nil =>
    refine ⟨init c g, init c g', [], rfl, rfl, rfl, rfl, ⟨rfl, rfl, rfl, rfl⟩, Or.inr (deaf_init c g)⟩
  | append_singleton ms m ih =>
    obtain ⟨s, s', outs, h1, h2, h3⟩ := ih (fun a x b e => h a x (b ++ [m]) (by rw [e]; simp))
    have t := traced_runs hc g ms h1
    have t' := traced_runs hc g' ms h2
    obtain ⟨e1, e2⟩ := h ms m [] rfl
    obtain ⟨u, u', r, k1, k2, -, k4⟩ := sim_step hc t.inv h3 m
      (by rw [update_sensor, update_sensor, t.sensor, t'.sensor]
          rw [lastSensor_snoc, lastSensor_snoc] at e1
          exact e1)
      (by rw [update_sensor, update_nmea, update_nmea, t.sensor, t.nmea, t'.nmea]
          rw [lastNmea_snoc, lastNmea_snoc, lastSensor_snoc] at e2
          exact e2)
    refine ⟨u, u', outs ++ [r], ?_, ?_, k4⟩
    · rw [runs_append, h1]
      change andThen (andThen (step c s m) _) _ = _
      rw [k1]
      rfl
    · rw [runs_append, h2]
      change andThen (andThen (step c s' m) _) _ = _
      rw [k2]
      rfl

theorem lastNmea_of_mem (g g' : NmeaMeasurement) (ms : List Measurement) (n : Measurement) (hn : n ∈ ms) (d : NmeaData)
    (hd : n.data = .nmea d) : lastNmea g ms = lastNmea g' ms := by
  unfold lastNmea
  cases hl : (ms.filterMap (fun m => match m.data with
    | .nmea d => some (⟨d, m.ts⟩ : NmeaMeasurement)
    | _ => none)).getLast? with
  | some x => rfl
  | none =>
    exfalso
    rw [List.getLast?_eq_none_iff, List.filterMap_eq_nil_iff] at hl
    have := hl n hn
    rw [hd] at this
    cases this

theorem lastSensor_of_mem (g g' : SensorMeasurement) (ms : List Measurement) (n : Measurement) (hn : n ∈ ms) (d : SensorData)
    (hd : n.data = .sensor d) : lastSensor g ms = lastSensor g' ms ∧
      ∃ x ∈ ms, x.data = .sensor (lastSensor g ms).data := by
  unfold lastSensor
  cases hl : (ms.filterMap (fun m => match m.data with
    | .sensor d => some (⟨d, m.ts⟩ : SensorMeasurement)
    | _ => none)).getLast? with
  | some x =>
    refine ⟨rfl, ?_⟩
    have hx := List.mem_of_getLast? hl
    rw [List.mem_filterMap] at hx
    obtain ⟨y, hy, hy2⟩ := hx
    refine ⟨y, hy, ?_⟩
    cases hyd : y.data <;> rw [hyd] at hy2 <;> simp at hy2
    rw [← hy2]
    rfl
  | none =>
    exfalso
    rw [List.getLast?_eq_none_iff, List.filterMap_eq_nil_iff] at hl
    have := hl n hn
    rw [hd] at this
    cases this

/-- **C82.** The contents of uninitialised memory, other than the two messages, never have an effect. -/
theorem C82_other_memory {ls : List Level} {c : Cfg} (hc : Client ls c) (g g' : Garbage) (hs : g.sensor = g'.sensor)
    (hn : g.nmea = g'.nmea) (batches : List (List Measurement)) :
    ∃ s s' outs, navigateAll c (init c g) batches = .ok (s, outs) ∧ navigateAll c (init c g') batches = .ok (s', outs) := by
  rw [navigateAll_eq, navigateAll_eq]
  obtain ⟨s, s', outs, h1, h2, -⟩ := sim_runs hc g g' (taken batches) (by
    intro a m b _
    rw [hs, hn]
    exact ⟨rfl, Or.inl rfl⟩)
  exact ⟨s, s', outs, h1, h2⟩

/-- **C82.** If the first measurement is one of a sensor, and an NMEA message comes before the first fix, no
contents of uninitialised memory have an effect on any output. -/
theorem C82_well_started {ls : List Level} {c : Cfg} (hc : Client ls c) (g g' : Garbage) (batches : List (List Measurement))
    (hw : WellStarted (taken batches)) :
    ∃ s s' outs, navigateAll c (init c g) batches = .ok (s, outs) ∧ navigateAll c (init c g') batches = .ok (s', outs) := by
  rw [navigateAll_eq, navigateAll_eq]
  obtain ⟨s, s', outs, h1, h2, -⟩ := sim_runs hc g g' (taken batches) (by
    intro a m b e
    have hfirst : ∃ n ∈ a ++ [m], ∃ d, n.data = .sensor d := by
      cases a with
      | nil =>
        obtain ⟨d, hd⟩ := hw.sensor m (by rw [e]; rfl)
        exact ⟨m, by simp, d, hd⟩
      | cons y a =>
        obtain ⟨d, hd⟩ := hw.sensor y (by rw [e]; rfl)
        exact ⟨y, by simp, d, hd⟩
    obtain ⟨n, hn, d, hd⟩ := hfirst
    refine ⟨(lastSensor_of_mem _ _ _ n hn d hd).1, ?_⟩
    by_cases hl : (lastSensor g.sensor (a ++ [m])).data.type = .LOCATION
    · left
      obtain ⟨-, x, hx, hxd⟩ := lastSensor_of_mem g.sensor g.sensor _ n hn d hd
      obtain ⟨a1, b1, hab⟩ := List.append_of_mem hx
      obtain ⟨k, hk, dk, hkd⟩ := hw.nmea a1 x (b1 ++ b) (by
        rw [e]
        have : a ++ m :: b = (a ++ [m]) ++ b := by simp
        rw [this, hab]
        simp) ⟨_, hxd, hl⟩
      exact lastNmea_of_mem _ _ _ k (by rw [hab]; simp [hk]) dk hkd
    · exact Or.inr hl)
  exact ⟨s, s', outs, h1, h2⟩

end Verif.Nav
