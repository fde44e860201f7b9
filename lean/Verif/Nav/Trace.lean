import Verif.Nav.Safety

/-!
# How the state of the client depends on the measurements
-/

namespace Verif.Nav

open Verif.Levels
open Verif.Knn (Result)

theorem navigateAll_eq (c : Cfg) (s : State) (batches : List (List Measurement)) :
    navigateAll c s batches = runs c s (taken batches) := by
  induction batches generalizing s with
  | nil => rfl
  | cons b bs ih =>
    unfold navigateAll
    rw [navigate_eq]
    have : taken (b :: bs) = records b ++ taken bs := rfl
    rw [this, runs_append]
    congr 1
    funext r
    rw [ih]

theorem navigate_one (c : Cfg) (s : State) (m : Measurement) :
    navigate c s [m] = andThen (step c s m) (fun r => .ok (r.1, [r.2])) := by
  rw [navigate_eq, records_ordered _ (by simp [Ordered])]
  change andThen (step c s m) (fun r => andThen (.ok (r.1, [])) _) = _
  rfl

theorem runs_snoc {c : Cfg} {s s' : State} {ms : List Measurement} {m : Measurement} {outs : List (Output × DebugState)}
    (h : runs c s (ms ++ [m]) = .ok (s', outs)) :
    ∃ s1 outs1 r, runs c s ms = .ok (s1, outs1) ∧ step c s1 m = .ok (s', r) ∧ outs = outs1 ++ [r] := by
  rw [runs_append] at h
  obtain ⟨⟨s1, outs1⟩, h1, h2⟩ := andThen_ok h
  obtain ⟨r', h3, h4⟩ := andThen_ok h2
  obtain ⟨⟨s2, o⟩, h5, h6⟩ := andThen_ok h3
  obtain ⟨r2, h7, h8⟩ := andThen_ok h6
  cases h7
  cases h8
  cases h4
  exact ⟨s1, outs1, o, h1, h5, rfl⟩

/-- What one measurement does, given the invariant. -/
structure Stepped (ls : List Level) (c : Cfg) (s : State) (m : Measurement) (s' : State) (out : Output) (x : Sensed)
    (l : Located) : Prop where
  sense : sense c s m = .ok x
  locate : locate c s x = .ok l
  report : report c x l = .ok out
  state : s' = l.state
  sensed : SensedOk ls c x
  inv : Inv ls c s'
  usual : Usual l.status

theorem step_parts {ls : List Level} {c : Cfg} (hc : Client ls c) {s : State} (h : Inv ls c s) {m : Measurement}
    {s' : State} {r : Output × DebugState} (hs : step c s m = .ok (s', r)) :
    ∃ x l, Stepped ls c s m s' r.1 x l ∧ r.2 = debugState x s' := by
  obtain ⟨x, l, out, h1, h2, h3, h4, h5, h6, h7⟩ := step_defined hc h m
  rw [hs] at h4
  cases h4
  exact ⟨x, l, ⟨h1, h2, h3, rfl, h5, h6, h7⟩, rfl⟩

/-- The parts of the sensing that depend on the preprocessor and the level estimator. -/
theorem sense_parts {c : Cfg} {s : State} {m : Measurement} {x : Sensed} (h : sense c s m = .ok x) :
    let pre := Radio.updateMeasurements c.pre s.pre m
    Fusion.calculateDisplacement c.fusion s.fusion pre.sensor m.ts = some (x.fusion, x.info) ∧
    (Radio.extractRadioMeasurements c.env.radioSorts c.pre pre x.info.lastMotionTs).1 = some x.radio ∧
    x.pre = (Radio.extractRadioMeasurements c.env.radioSorts c.pre pre x.info.lastMotionTs).2 ∧
    x.pre.sensor = pre.sensor ∧ x.pre.nmea = pre.nmea ∧ x.pre.lastSignalTs = pre.lastSignalTs ∧ x.pre.currentTs = m.ts ∧
    (∃ d, detectLevel c x.radio = some d ∧
      LevelEst.calculateLevel c.cs.useBarometer s.level d pre.sensor = (x.levelId, x.level)) ∧
    Estim.outdoorPosition c.cs c.levels s.outdoor m.ts pre.sensor pre.nmea s.flagIndoorPos = some (x.outdoorPos, x.outdoor) := by
  intro pre
  have hts : pre.currentTs = m.ts := by
    change (Radio.updateMeasurements c.pre s.pre m).currentTs = _
    unfold Radio.updateMeasurements
    dsimp only
    split
    · split <;> rfl
    · rfl
    · rfl
  unfold sense at h
  obtain ⟨f, h1, h2⟩ := andThen_ok h
  obtain ⟨radio, h3, h4⟩ := andThen_ok h2
  obtain ⟨d, h5, h6⟩ := andThen_ok h4
  obtain ⟨o, h7, h8⟩ := andThen_ok h6
  cases h8
  have g1 : ∀ {α : Type} {a : Option α} {b : α}, orUndefined a = .ok b → a = some b := by
    intro α a b h; cases a <;> cases h; rfl
  have g2 : ∀ {α : Type} {a : Option α} {b : α}, orThrow a = .ok b → a = some b := by
    intro α a b h; cases a <;> cases h; rfl
  have h1' := g1 h1
  have h3' := g2 h3
  have h5' := g2 h5
  have h7' := g1 h7
  rw [← hts]
  exact ⟨h1', h3', rfl, rfl, rfl, rfl, rfl, ⟨d, h5', rfl⟩, h7'⟩

/-- The preprocessor is advanced by the measurement, whatever the outcome. -/
theorem locate_frame {c : Cfg} {s : State} {x : Sensed} {l : Located} (h : locate c s x = .ok l) :
    l.state.pre = x.pre ∧ l.state.fusion = x.fusion ∧ l.state.level = x.level ∧ l.state.outdoor = x.outdoor := by
  unfold locate at h
  dsimp only at h
  split_ifs at h
  · obtain ⟨lv, -, h2⟩ := andThen_ok h
    unfold locateIndoor at h2
    obtain ⟨i, -, h3⟩ := andThen_ok h2
    obtain ⟨hh, -, h4⟩ := andThen_ok h3
    obtain ⟨p, -, h5⟩ := andThen_ok h4
    cases h5
    exact ⟨rfl, rfl, rfl, rfl⟩
  · cases h; exact ⟨rfl, rfl, rfl, rfl⟩
  · cases h; exact ⟨rfl, rfl, rfl, rfl⟩

/-- Without a level the position is the outdoor one, or the old one. -/
theorem locate_nowhere {ls : List Level} {c : Cfg} (hc : Client ls c) {s : State} {x : Sensed} {l : Located}
    (h : locate c s x = .ok l) (ht : timedOutLevel c x = "") :
    l.azimuth = x.info.azimuth ∧ l.state.post = s.post ∧ l.state.indoorPos = s.indoorPos ∧ l.state.flagIndoorPos = false ∧
    ((x.outdoorPos.isEmpty = false ∧ l.state.position = x.outdoorPos ∧ l.status = .OK) ∨
     (x.outdoorPos.isEmpty = true ∧ l.state.position = s.position ∧ l.status = .NO_LEVEL)) := by
  have hh : ¬ ∃ lv ∈ ls, lv.id = timedOutLevel c x := by
    rintro ⟨lv, hl, hid⟩
    rw [ht] at hid
    exact hc.map.named lv hl hid
  obtain ⟨h1, h2⟩ := locate_no_level hc s hh
  cases he : x.outdoorPos.isEmpty with
  | false =>
    rw [h1 he] at h
    cases h
    exact ⟨rfl, rfl, rfl, rfl, Or.inl ⟨rfl, rfl, rfl⟩⟩
  | true =>
    rw [h2 he] at h
    cases h
    exact ⟨rfl, rfl, rfl, rfl, Or.inr ⟨rfl, rfl, rfl⟩⟩

/-- Only the branch without a level answers NO_LEVEL. -/
theorem no_level_position {ls : List Level} {c : Cfg} (hc : Client ls c) {s s' : State} {m : Measurement} {out : Output}
    {x : Sensed} {l : Located} (h : Stepped ls c s m s' out x l) (hi : Inv ls c s) (hn : l.status = .NO_LEVEL) :
    l.state.position = s.position := by
  by_cases hh : ∃ lv ∈ ls, lv.id = timedOutLevel c x
  · obtain ⟨lv, i, p, ph, ha⟩ := locate_level hc hi h.sensed hh
    have h1 := ha.located
    rw [h.locate] at h1
    cases h1
    rcases ha.usual with h2 | h2 | h2 <;> rw [h2] at hn <;> cases hn
  · obtain ⟨h1, h2⟩ := locate_no_level hc s hh
    have hl := h.locate
    cases he : x.outdoorPos.isEmpty with
    | false => rw [h1 he] at hl; cases hl; cases hn
    | true => rw [h2 he] at hl; cases hl; rfl

/-! ## The preprocessor -/

theorem update_sensor (cfg : Radio.Cfg) (st : Radio.State) (m : Measurement) :
    (Radio.updateMeasurements cfg st m).sensor = (match m.data with | .sensor d => ⟨d, m.ts⟩ | _ => st.sensor) := by
  unfold Radio.updateMeasurements
  dsimp only
  split <;> rename_i h <;> rw [h]
  split <;> rfl

theorem update_nmea (cfg : Radio.Cfg) (st : Radio.State) (m : Measurement) :
    (Radio.updateMeasurements cfg st m).nmea = (match m.data with | .nmea d => ⟨d, m.ts⟩ | _ => st.nmea) := by
  unfold Radio.updateMeasurements
  dsimp only
  split <;> rename_i h <;> rw [h]
  split <;> rfl

theorem lastSensor_snoc (g : SensorMeasurement) (ms : List Measurement) (m : Measurement) :
    lastSensor g (ms ++ [m]) = (match m.data with | .sensor d => ⟨d, m.ts⟩ | _ => lastSensor g ms) := by
  unfold lastSensor
  rw [List.filterMap_append, List.getLast?_append]
  cases hd : m.data <;> simp [hd]

theorem lastNmea_snoc (g : NmeaMeasurement) (ms : List Measurement) (m : Measurement) :
    lastNmea g (ms ++ [m]) = (match m.data with | .nmea d => ⟨d, m.ts⟩ | _ => lastNmea g ms) := by
  unfold lastNmea
  rw [List.filterMap_append, List.getLast?_append]
  cases hd : m.data <;> simp [hd]

theorem update_heard {ls : List Level} {c : Cfg} (hc : Client ls c) (st : Radio.State) (m : Measurement) :
    (Heard ls c.cs m → (Radio.updateMeasurements c.pre st m).lastSignalTs = m.ts) ∧
    (¬ Heard ls c.cs m → (Radio.updateMeasurements c.pre st m).lastSignalTs = st.lastSignalTs ∧
      (Radio.updateMeasurements c.pre st m).buffer = st.buffer) := by
  rw [hc.parts.pre]
  obtain ⟨data, ts⟩ := m
  cases data with
  | radio d =>
    have h := Radio.C16_admission ls hc.map.nodup c.cs st d ts
    constructor
    · rintro ⟨d', hd, ha⟩
      cases hd
      exact (h.1 ha).2
    · intro hn
      have : ¬ Radio.Admissible ls c.cs d := fun ha => hn ⟨d, rfl, ha⟩
      exact ⟨(h.2 this).2, (h.2 this).1⟩
  | sensor d => exact ⟨fun ⟨d', hd, _⟩ => (by cases hd), fun _ => ⟨rfl, rfl⟩⟩
  | nmea d => exact ⟨fun ⟨d', hd, _⟩ => (by cases hd), fun _ => ⟨rfl, rfl⟩⟩

theorem extract_empty {s : Radio.Sorts} (hs : s.Lawful) (cfg : Radio.Cfg) (st : Radio.State) (t : Int)
    (h : st.buffer.measurements = []) :
    (Radio.extractRadioMeasurements s cfg st t).1 = some [] ∧
    (Radio.extractRadioMeasurements s cfg st t).2.buffer.measurements = [] := by
  have hid : s.byId [] = [] := (hs.byId.perm []).eq_nil
  have hts : s.byTs [] = [] := (hs.byTs.perm []).eq_nil
  have hr : s.byRssi [] = [] := (hs.byRssi.perm []).eq_nil
  have hav : Radio.averageLoop [] = [] := by unfold Radio.averageLoop; rfl
  have key : (Radio.extractMeasurements s cfg.buffer st.buffer t).1 = [] ∧
      (Radio.extractMeasurements s cfg.buffer st.buffer t).2.measurements = [] := by
    have hm : (if t > 0 then { st.buffer with lastStepTs := t } else st.buffer).measurements = [] := by
      split_ifs <;> exact h
    unfold Radio.extractMeasurements
    dsimp only
    split_ifs <;> simp_all
  unfold Radio.extractRadioMeasurements
  dsimp only
  rw [key.1]
  refine ⟨?_, key.2⟩
  unfold Radio.closestAps
  simp [hr]

theorem detect_nothing {ls : List Level} {c : Cfg} (hc : Client ls c) : detectLevel c [] = some "" := by
  unfold detectLevel
  rw [hc.parts.detector, hc.parts.levels]
  unfold createLevelEstimator
  have hlv : (collect ls).levels = ls := (C12_lookup ls "").1
  split_ifs
  · obtain ⟨r, h1, h2⟩ := Knn.C28_level c.cs.useBestRefPointLevel (collect ls) []
    cases r with
    | none => exact h1
    | some l =>
      exfalso
      obtain ⟨_, _, -, -, hpos, -⟩ := h2
      dsimp only at hpos
      split_ifs at hpos
      · rcases Knn.C28_best_rp [] (Knn.fingerprintsOf (collect ls) l.id) with ⟨-, h0⟩ | ⟨⟨rp, h3, -⟩, -⟩
        · rw [h0] at hpos; exact lt_irrefl _ hpos
        · simp [Knn.matched] at h3
      · obtain ⟨m, hm, -⟩ := (Knn.C28_score [] (Knn.fingerprintsOf (collect ls) l.id)).2.mp hpos
        simp at hm
  · obtain ⟨r, h1, h2⟩ := LevelEst.C27_detected c.cs.useTxPower ls [] (collect ls) hlv
    cases r with
    | none => exact h2
    | some l =>
      exfalso
      obtain ⟨_, _, -, hne, -⟩ := h1
      exact hne rfl

/-- Nothing was heard yet. -/
structure Deaf (s : State) : Prop where
  buffer : s.pre.buffer.measurements = []
  level : LevelsOk (· = "") s.level

theorem last_unique {α : Type} {P : α → Prop} {a a' b b' : List α} {e e' : α} (h : P e) (h' : P e')
    (hb : ∀ y ∈ b, ¬ P y) (hb' : ∀ y ∈ b', ¬ P y) (heq : a ++ e :: b = a' ++ e' :: b') : e = e' := by
  rcases List.append_eq_append_iff.mp heq with ⟨z, h1, h2⟩ | ⟨z, h1, h2⟩
  · cases z with
    | nil => simp at h2; exact h2.1
    | cons y ys =>
      simp at h2
      exact absurd h' (hb e' (by rw [h2.2]; simp))
  · cases z with
    | nil => simp at h2; exact h2.1.symm
    | cons y ys =>
      simp at h2
      exact absurd h (hb' e (by rw [h2.2]; simp))

theorem deaf_init (c : Cfg) (g : Garbage) : Deaf (init c g) := ⟨rfl, rfl, rfl⟩

theorem deaf_sense {ls : List Level} {c : Cfg} (hc : Client ls c) {s : State} (hd : Deaf s) {m : Measurement}
    (hm : ¬ Heard ls c.cs m) {x : Sensed} (hx : sense c s m = .ok x) :
    x.radio = [] ∧ x.levelId = "" ∧ x.pre.buffer.measurements = [] ∧ LevelsOk (· = "") x.level := by
  obtain ⟨-, h1, h2, -, -, -, -, ⟨d, h3, h4⟩, -⟩ := sense_parts hx
  have hb : (Radio.updateMeasurements c.pre s.pre m).buffer.measurements = [] := by
    rw [((update_heard hc s.pre m).2 hm).2]; exact hd.buffer
  obtain ⟨e1, e2⟩ := extract_empty hc.radioSorts c.pre (Radio.updateMeasurements c.pre s.pre m) x.info.lastMotionTs hb
  rw [e1] at h1
  have hr : x.radio = [] := (Option.some.inj h1).symm
  rw [hr, detect_nothing hc] at h3
  cases h3
  obtain ⟨l1, l2⟩ := calculateLevel_ok (P := (· = "")) c.cs.useBarometer s.level hd.level "" rfl
    (Radio.updateMeasurements c.pre s.pre m).sensor
  rw [h4] at l1 l2
  exact ⟨hr, l1, by rw [h2]; exact e2, l2⟩

/-- A position, if any, is one of the satellite receiver. -/
def Gnss (p : Position) : Prop := p.isEmpty = false → p.provider = .GNSS

theorem gnss_sense {c : Cfg} {s : State} (h : Gnss s.outdoor.last) {m : Measurement} {x : Sensed}
    (hx : sense c s m = .ok x) : Gnss x.outdoorPos ∧ Gnss x.outdoor.last := by
  have hd : Gnss Position.default := fun h => by cases h
  obtain ⟨-, -, -, -, -, -, -, -, h7⟩ := sense_parts hx
  obtain ⟨h1, h2⟩ := Estim.outdoor_step c.cs c.levels s.outdoor
    ⟨m.ts, (Radio.updateMeasurements c.pre s.pre m).sensor, (Radio.updateMeasurements c.pre s.pre m).nmea, s.flagIndoorPos⟩ _ _ h7
  by_cases hf : (Radio.updateMeasurements c.pre s.pre m).sensor.data.type = .LOCATION
  · rcases h2 hf with ⟨e1, e2⟩ | ⟨l, -, -, e1, e2⟩
    · exact ⟨by rw [e1]; exact hd, by rw [e2]; exact h⟩
    · have : Gnss x.outdoorPos := by rw [e1]; exact fun _ => rfl
      exact ⟨this, by rw [e2]; exact this⟩
  · obtain ⟨e1, e2⟩ := h1 hf
    refine ⟨?_, by rw [e1]; exact h⟩
    rw [e2]
    split_ifs
    · exact hd
    · exact h

theorem outdoor_last {c : Cfg} {s : State} {m : Measurement} {x : Sensed} (hx : sense c s m = .ok x) :
    x.outdoor.last = s.outdoor.last ∨
    ((Radio.updateMeasurements c.pre s.pre m).sensor.data.type = .LOCATION ∧ x.outdoor.last.ts = m.ts) := by
  obtain ⟨-, -, -, -, -, -, -, -, h7⟩ := sense_parts hx
  obtain ⟨h1, h2⟩ := Estim.outdoor_step c.cs c.levels s.outdoor
    ⟨m.ts, (Radio.updateMeasurements c.pre s.pre m).sensor, (Radio.updateMeasurements c.pre s.pre m).nmea, s.flagIndoorPos⟩ _ _ h7
  by_cases hf : (Radio.updateMeasurements c.pre s.pre m).sensor.data.type = .LOCATION
  · rcases h2 hf with ⟨-, e2⟩ | ⟨l, -, -, e1, e2⟩
    · exact Or.inl e2
    · right
      refine ⟨hf, ?_⟩
      rw [e2, e1]
      rfl
  · exact Or.inl (h1 hf).1

/-- What the preprocessor knows after the measurements `ms`. -/
structure Traced (ls : List Level) (c : Cfg) (g : Garbage) (ms : List Measurement) (s : State) : Prop where
  inv : Inv ls c s
  gnss : Gnss s.outdoor.last
  sensor : s.pre.sensor = lastSensor g.sensor ms
  nmea : s.pre.nmea = lastNmea g.nmea ms
  last : s.outdoor.last.isEmpty = false → ∃ a e b, ms = a ++ e :: b ∧
    (lastSensor g.sensor (a ++ [e])).data.type = .LOCATION ∧ s.outdoor.last.ts = e.ts
  heard : (∃ a e b, ms = a ++ e :: b ∧ Heard ls c.cs e ∧ (∀ e' ∈ b, ¬ Heard ls c.cs e') ∧ e.ts = s.pre.lastSignalTs) ∨ ((∀ e ∈ ms, ¬ Heard ls c.cs e) ∧ Deaf s ∧
    s.pre.lastSignalTs = g.lastSignalTs)

theorem traced_step {ls : List Level} {c : Cfg} (hc : Client ls c) {g : Garbage} {ms : List Measurement} {s : State}
    (h : Traced ls c g ms s) {m : Measurement} {s' : State} {r : Output × DebugState} (hs : step c s m = .ok (s', r)) :
    Traced ls c g (ms ++ [m]) s' ∧ ∃ x l, Stepped ls c s m s' r.1 x l ∧ r.2 = debugState x s' := by
  obtain ⟨x, l, hst, hdbg⟩ := step_parts hc h.inv hs
  refine ⟨?_, x, l, hst, hdbg⟩
  obtain ⟨-, -, -, e1, e2, e3, -⟩ := sense_parts hst.sense
  obtain ⟨f1, -, f3, f4⟩ := locate_frame hst.locate
  rw [hst.state]
  refine ⟨hst.state ▸ hst.inv, by rw [f4]; exact (gnss_sense h.gnss hst.sense).2, ?_, ?_, ?_, ?_⟩
  · rw [f1, e1, update_sensor, lastSensor_snoc, h.sensor]
  · rw [f1, e2, update_nmea, lastNmea_snoc, h.nmea]
  · rw [f4]
    intro hne
    rcases outdoor_last hst.sense with ho | ⟨ho, ht⟩
    · rw [ho] at hne
      obtain ⟨a, e, b, h1, h2, h3⟩ := h.last hne
      exact ⟨a, e, b ++ [m], by rw [h1]; simp, h2, by rw [ho]; exact h3⟩
    · refine ⟨ms, m, [], rfl, ?_, ht⟩
      rw [lastSensor_snoc, ← h.sensor, ← update_sensor c.pre]
      exact ho
  · rw [f1, e3]
    by_cases hm : Heard ls c.cs m
    · left
      exact ⟨ms, m, [], rfl, hm, by simp, ((update_heard hc s.pre m).1 hm).symm⟩
    · rw [((update_heard hc s.pre m).2 hm).1]
      rcases h.heard with ⟨a, e, b, he, hh, hb, ht⟩ | ⟨hno, hd, hl⟩
      · left
        refine ⟨a, e, b ++ [m], by rw [he]; simp, hh, ?_, ht⟩
        intro e' he'
        rcases List.mem_append.mp he' with he' | he'
        · exact hb e' he'
        · rw [List.mem_singleton] at he'; rw [he']; exact hm
      · right
        obtain ⟨-, -, d1, d2⟩ := deaf_sense hc hd hm hst.sense
        refine ⟨?_, ⟨by rw [f1]; exact d1, by rw [f3]; exact d2⟩, hl⟩
        intro e he
        rcases List.mem_append.mp he with he | he
        · exact hno e he
        · rw [List.mem_singleton] at he; rw [he]; exact hm

theorem traced_runs {ls : List Level} {c : Cfg} (hc : Client ls c) (g : Garbage) (ms : List Measurement) {s : State}
    {outs : List (Output × DebugState)} (h : runs c (init c g) ms = .ok (s, outs)) : Traced ls c g ms s := by
  induction ms using List.reverseRecOn generalizing s outs with
  | nil =>
    cases h
    exact ⟨inv_init hc g, (fun h => by cases h), rfl, rfl, (fun h => by cases h), Or.inr ⟨by simp, deaf_init c g, rfl⟩⟩
  | append_singleton ms m ih =>
    obtain ⟨s1, outs1, r, h1, h2, -⟩ := runs_snoc h
    exact (traced_step hc (ih h1) h2).1

/-- In silence no level is used. -/
theorem silent_level {ls : List Level} {c : Cfg} (hc : Client ls c) {g : Garbage} {ms : List Measurement} {s : State}
    (h : Traced ls c g ms s) {m : Measurement} (hsil : Silent ls c.cs ms m) {x : Sensed} (hx : sense c s m = .ok x) :
    timedOutLevel c x = "" := by
  obtain ⟨-, -, -, -, -, e3, e4, -⟩ := sense_parts hx
  by_cases hm : Heard ls c.cs m
  · have hs : x.pre.currentTs - x.pre.lastSignalTs ≥ c.noSignal := by
      rw [e3, e4, (update_heard hc s.pre m).1 hm, hc.parts.noSignal]
      have := hsil m (by simp) hm
      omega
    unfold timedOutLevel
    dsimp only
    rw [if_pos hs]
    split_ifs <;> rfl
  · rw [((update_heard hc s.pre m).2 hm).1] at e3
    rcases h.heard with ⟨a, e, b, he, hh, -, ht⟩ | ⟨hno, hd, -⟩
    · have hs : x.pre.currentTs - x.pre.lastSignalTs ≥ c.noSignal := by
        rw [e3, e4, ← ht, hc.parts.noSignal]
        have := hsil e (by rw [he]; simp) hh
        omega
      unfold timedOutLevel
      dsimp only
      rw [if_pos hs]
      split_ifs <;> rfl
    · have hl := (deaf_sense hc hd hm hx).2.1
      unfold timedOutLevel
      dsimp only
      rw [hl]
      split_ifs <;> rfl

/-- A motion is reported for the time of the measurement, or not at all. -/
theorem motion_now {ls : List Level} {c : Cfg} {s : State} (h : Inv ls c s) {m : Measurement} {x : Sensed}
    (hx : sense c s m = .ok x) : x.info.lastMotionTs = 0 ∨ x.info.lastMotionTs = m.ts := by
  obtain ⟨e1, -⟩ := sense_parts hx
  obtain ⟨j1, j2, ms, infos, pouts, hf⟩ := h.fusion
  obtain ⟨f', info, o, g1, -, g3⟩ := Fusion.fusion_step c.fusion j1 j2 ms s.fusion infos pouts hf
    (Radio.updateMeasurements c.pre s.pre m).sensor m.ts
  rw [e1] at g1
  cases g1
  rw [g3.motion]
  split_ifs
  · exact Or.inl rfl
  · exact Or.inr rfl

/-- With a positive no-action threshold only the other time-out matters. -/
theorem timedOut_eq {ls : List Level} {c : Cfg} {s : State} (h : Inv ls c s) (ha : 0 < c.noAction) {m : Measurement} {x : Sensed}
    (hx : sense c s m = .ok x) :
    timedOutLevel c x = if m.ts - x.pre.lastSignalTs ≥ c.noSignal then "" else x.levelId := by
  obtain ⟨-, -, -, -, -, -, e4, -⟩ := sense_parts hx
  unfold timedOutLevel
  dsimp only
  rw [e4, if_neg]
  rintro ⟨-, h2, h3⟩
  rcases motion_now h hx with h0 | h0 <;> rw [h0] at h2 h3 <;> omega

/-- After a recent signal the level is used. -/
theorem fresh_level {ls : List Level} {c : Cfg} (hc : Client ls c) (ha : 0 < c.cs.noActionTimeThreshold) {g : Garbage}
    {ms : List Measurement} {s : State} (h : Traced ls c g ms s) {m : Measurement} (hf : Fresh ls c.cs ms m) {x : Sensed}
    (hx : sense c s m = .ok x) : timedOutLevel c x = x.levelId := by
  have ha' : 0 < c.noAction := by rw [hc.parts.noAction]; omega
  obtain ⟨-, -, -, -, -, e3, -⟩ := sense_parts hx
  rw [timedOut_eq h.inv ha' hx, if_neg]
  obtain ⟨a, e, b, hab, hh, hb, hts⟩ := hf
  have hl : x.pre.lastSignalTs = e.ts := by
    rw [e3]
    cases b using List.reverseRecOn with
    | nil =>
      obtain ⟨-, h2⟩ := List.append_inj' hab rfl
      cases h2
      exact (update_heard hc s.pre m).1 hh
    | append_singleton b z _ =>
      have e2 : ms ++ [m] = (a ++ e :: b) ++ [z] := by rw [hab]; simp
      obtain ⟨h1, h2⟩ := List.append_inj' e2 rfl
      cases h2
      rw [((update_heard hc s.pre m).2 (hb m (by simp))).1]
      rcases h.heard with ⟨a', e', b', he', hh', hb', ht'⟩ | ⟨hno, -⟩
      · rw [← ht', last_unique (P := Heard ls c.cs) hh' hh hb' (fun y hy => hb y (by simp [hy])) (he'.symm.trans h1)]
      · exact absurd hh (hno e (by rw [h1]; simp))
  rw [hl, hc.parts.noSignal]
  omega

/-- The output shows the position. -/
def Shows (ls : List Level) (p : Position) (o : Output) : Prop :=
  (p.isEmpty = true ∧ o.status ≠ .OK ∧ Blank o) ∨
  (p.isEmpty = false ∧ o.status = .OK ∧ ∃ lv ∈ ls, lv.id = p.levelId ∧ o.posLevel = p.levelId ∧
    o.posLatitude = (Geo.localToGps p.toXY lv.bindingPoint).latitude ∧
    o.posLongitude = (Geo.localToGps p.toXY lv.bindingPoint).longitude ∧
    o.posR = some p.deviationM ∧ o.provider = some p.provider)

theorem stepped_shows {ls : List Level} {c : Cfg} (hc : Client ls c) {s s' : State} {m : Measurement} {out : Output}
    {x : Sensed} {l : Located} (h : Stepped ls c s m s' out x l) :
    Shows ls s'.position out ∧
    (out.status = .OK → out.posOrientation = some (Fusion.toMinusPiPi l.azimuth)) ∧
    (s'.position.isEmpty = true → out.status = if l.status = .OK then .NAVIGATION_ERROR else l.status) := by
  have hp : Tame ls l.state.position := h.state ▸ h.inv.position
  rw [h.state]
  rcases report_eq hc x l hp with ⟨he, hr⟩ | ⟨he, lv, hlv, hid, a, -, hr⟩
  · rw [h.report] at hr
    cases hr
    have hne : (if l.status = .OK then NavigationStatus.NAVIGATION_ERROR else l.status) ≠ .OK := by
      by_cases hs : l.status = .OK
      · rw [if_pos hs]; simp
      · rw [if_neg hs]; exact hs
    exact ⟨Or.inl ⟨he, hne, rfl, rfl, rfl, rfl, rfl, rfl, rfl⟩, fun h => absurd h hne, fun _ => rfl⟩
  · rw [h.report] at hr
    cases hr
    exact ⟨Or.inr ⟨he, rfl, lv, hlv, hid, rfl, rfl, rfl, rfl, rfl⟩, fun _ => rfl, fun h => by rw [he] at h; cases h⟩

theorem shows_same {ls : List Level} (hn : (ls.map Level.id).Nodup) {p : Position} {a b : Output} (ha : Shows ls p a)
    (hb : Shows ls p b) (hp : p.isEmpty = false) : SamePlace a b := by
  rcases ha with ⟨h, -⟩ | ⟨-, a1, la, hla, ida, a2, a3, a4, a5, a6⟩
  · rw [hp] at h; cases h
  rcases hb with ⟨h, -⟩ | ⟨-, b1, lb, hlb, idb, b2, b3, b4, b5, b6⟩
  · rw [hp] at h; cases h
  have e : la = lb := by
    have h1 := level_of_mem hn hla
    have h2 := level_of_mem hn hlb
    rw [ida, ← idb, h2] at h1
    exact (Option.some.inj h1).symm
  subst e
  exact ⟨a1, b1, a2.trans b2.symm, a3.trans b3.symm, a4.trans b4.symm, a5.trans b5.symm, a6.trans b6.symm⟩

/-- The last output shows the position held. -/
theorem last_shows {ls : List Level} {c : Cfg} (hc : Client ls c) {s0 s : State} (h0 : Inv ls c s0) (ms : List Measurement)
    {outs : List (Output × DebugState)} (h : runs c s0 ms = .ok (s, outs)) {o : Output × DebugState}
    (ho : outs.getLast? = some o) : Shows ls s.position o.1 := by
  induction ms using List.reverseRecOn with
  | nil => cases h; simp at ho
  | append_singleton ms m _ =>
    obtain ⟨s1, outs1, r, h1, h2, h3⟩ := runs_snoc h
    obtain ⟨s1', outs1', h1', hi⟩ := runs_defined hc h0 ms
    rw [h1] at h1'
    cases h1'
    obtain ⟨x, l, hst, -⟩ := step_parts hc hi h2
    rw [h3] at ho
    simp at ho
    rw [← ho]
    exact (stepped_shows hc hst).1

end Verif.Nav
