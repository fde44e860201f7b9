import Verif.Pressure.Lemmas

/-!
# Property theorems for C127: what a client with zones on several floors and a barometer answers
-/

namespace Verif.Pressure

open Verif.Levels Verif.Nav Verif.Floors
open Verif.Knn (Result)

/-- What the state of the client holds after the measurements `ms`. -/
structure Pressed (ls : List Level) (c : Cfg) (g : Garbage) (ms : List Measurement) (s : State) : Prop where
  buffered : Buffered c.cs (windows ls c.cs ms) s.pre.buffer
  pending : ∀ h ∈ (windows ls c.cs ms).pending, Radio.Admissible ls c.cs h.data
  voted : ∃ ds, List.Forall₂ (fun w d => FloorOf ls w.2 d) (closedWindows ls c.cs ms) ds ∧
    Counted (votes (ds.map Level.id)) s.level.history
  used : ∃ o, FloorUsed ls c.cs g ms o
  baro : Barometric ls c.cs g ms s.level.barometer
  place : ∀ lv t0 win, LastPlace ls c.cs g ms lv t0 win → ∃ b t, ZoneAt c lv t0 (onFloor lv win) b t s.post.indoorPos
  noPlace : NoPlace ls c.cs g ms → s.post.indoorPos.isEmpty = true
  early : FloorUsed ls c.cs g ms none → s.position.isEmpty = false → s.position.provider = .GNSS ∧ FixSeen g ms

theorem pressed_init (ls : List Level) (c : Cfg) (hp : PressureZones c.cs) (g : Garbage) : Pressed ls c g [] (init c g) := by
  have hs := span_pos hp.toWindowed
  constructor
  · constructor
    · rfl
    · exact fun _ => ⟨rfl, rfl⟩
    · intro t h; cases h
    · exact hs
  · intro h hh; cases hh
  · exact ⟨[], List.Forall₂.nil, rfl, rfl, fun _ => rfl⟩
  · exact ⟨none, used_nil⟩
  · exact barometric_init ls c.cs g
  · rintro lv t0 win ⟨a, m, b, h, -⟩
    simp at h
  · intro _; rfl
  · intro _ h; cases h

theorem fix_more {g : Garbage} {ms : List Measurement} (h : FixSeen g ms) (m : Measurement) : FixSeen g (ms ++ [m]) := by
  obtain ⟨a, e, b, h1, h2⟩ := h
  exact ⟨a, e, b ++ [m], by rw [h1]; simp, h2⟩

/-- A position of the satellite receiver comes from a fix. -/
theorem fix_outdoor {ls : List Level} {c : Cfg} {g : Garbage} {ms : List Measurement} {s : State} (ht : Traced ls c g ms s)
    {m : Measurement} {x : Sensed} (hx : sense c s m = .ok x) (he : x.outdoorPos.isEmpty = false) : FixSeen g (ms ++ [m]) := by
  obtain ⟨-, -, -, -, -, -, -, -, h7⟩ := sense_parts hx
  obtain ⟨h1, -⟩ := Estim.outdoor_step c.cs c.levels s.outdoor
    ⟨m.ts, (Radio.updateMeasurements c.pre s.pre m).sensor, (Radio.updateMeasurements c.pre s.pre m).nmea, s.flagIndoorPos⟩ _ _ h7
  have hsen : (Radio.updateMeasurements c.pre s.pre m).sensor = lastSensor g.sensor (ms ++ [m]) := by
    rw [update_sensor, lastSensor_snoc, ht.sensor]
  by_cases hf : (Radio.updateMeasurements c.pre s.pre m).sensor.data.type = .LOCATION
  · exact ⟨ms, m, [], rfl, by rw [← hsen]; exact hf⟩
  · have e2 := (h1 hf).2
    have hne : s.outdoor.last.isEmpty = false := by
      rw [e2] at he
      split_ifs at he
      · cases he
      · exact he
    obtain ⟨a, e, b, k1, k2, -⟩ := ht.last hne
    exact fix_more ⟨a, e, b, k1, k2⟩ m

/-- The floors of the windows, voted on, are the floor that the signals give. -/
theorem voted_signals {ls : List Level} {cs : CommonSettings} {ms : List Measurement} {ds : List Level} {h : LevelEst.History}
    (hds : List.Forall₂ (fun w d => FloorOf ls w.2 d) (closedWindows ls cs ms) ds) (hc : Counted (votes (ds.map Level.id)) h) :
    ∃ o, BySignals ls cs ms o ∧ h.current = nameOf o := by
  have key : ∀ (ds : List Level), (votes (ds.map Level.id)).used = none ∧ ds = [] ∨
      ∃ d ∈ ds, (votes (ds.map Level.id)).used = some d.id := by
    intro ds
    induction ds using List.reverseRecOn with
    | nil => exact Or.inl ⟨rfl, rfl⟩
    | append_singleton ds d ih =>
      right
      rw [List.map_append, List.map_singleton, votes_snoc]
      rcases see_used (votes (ds.map Level.id)) d.id with h | ⟨h1, h2⟩
      · exact ⟨d, by simp, h⟩
      · rcases ih with ⟨h0, -⟩ | ⟨e, he, hu⟩
        · rw [h0] at h1; cases h1
        · exact ⟨e, by simp [he], h2.trans hu⟩
  have hmem : ∀ d ∈ ds, d ∈ ls := by
    have : ∀ {ws : List (Int × List RadioMeasurement)} {ds : List Level}, List.Forall₂ (fun w d => FloorOf ls w.2 d) ws ds →
        ∀ d ∈ ds, d ∈ ls := by
      intro ws ds h
      induction h with
      | nil => intro d hd; cases hd
      | cons h1 _ ih =>
        intro d hd
        rcases List.mem_cons.mp hd with rfl | hd
        · obtain ⟨p, q, e, -⟩ := h1; rw [e]; simp
        · exact ih d hd
    exact this hds
  rcases key ds with ⟨h0, h1⟩ | ⟨d, hd, hu⟩
  · refine ⟨none, ?_, ?_⟩
    · subst h1
      change closedWindows ls cs ms = []
      cases hw : closedWindows ls cs ms with
      | nil => rfl
      | cons w ws => rw [hw] at hds; cases hds
    · rw [hc.current, h0]; rfl
  · exact ⟨some d, ⟨hmem d hd, ds, hds, hu⟩, by rw [hc.current, hu]; rfl⟩

/-- What the client holds after a recent signal. -/
structure Told (ls : List Level) (c : Cfg) (g : Garbage) (ms : List Measurement) (m : Measurement) (s' : State) (st : NavigationStatus) : Prop where
  nowhere : FloorUsed ls c.cs g (ms ++ [m]) none → s'.position.isEmpty = true → st = .NO_LEVEL
  inside : ∀ lv fl t0 win, FloorUsed ls c.cs g (ms ++ [m]) (some lv) → LastPlace ls c.cs g (ms ++ [m]) fl t0 win →
    Estim.Box.Covers lv.geometry.boundingBox s'.post.indoorPos.toXY → m.ts - t0 < ⌊1000 * c.cs.deadReckoningTime⌋ →
    s'.position = { s'.post.indoorPos with
      ts := m.ts, x := downToCm s'.post.indoorPos.x, y := downToCm s'.post.indoorPos.y }
  outside : ∀ lv fl t0 win, FloorUsed ls c.cs g (ms ++ [m]) (some lv) → LastPlace ls c.cs g (ms ++ [m]) fl t0 win →
    ¬ (Estim.Box.Covers lv.geometry.boundingBox s'.post.indoorPos.toXY ∧ m.ts - t0 < ⌊1000 * c.cs.deadReckoningTime⌋) →
    s'.position = Position.default ∧ ((∃ lv' win', Places ls c.cs g ms m lv' win') → st = .OK) ∧
      ((∀ lv' win', ¬ Places ls c.cs g ms m lv' win') → st = .NO_SOLUTION)
  unplaced : ∀ lv, FloorUsed ls c.cs g (ms ++ [m]) (some lv) → NoPlace ls c.cs g (ms ++ [m]) →
    s'.position = Position.default ∧ st = .NO_SOLUTION

theorem pressed_step {ls : List Level} {c : Cfg} (hc : Client ls c) (hp : PressureZones c.cs) {g : Garbage} {ms : List Measurement} {s : State}
    (ht : Traced ls c g ms s) (hz : Pressed ls c g ms s) {m : Measurement} (hts : 0 < m.ts) {s' : State} {out : Output} {x : Sensed}
    {l : Located} (hst : Stepped ls c s m s' out x l) :
    Pressed ls c g (ms ++ [m]) s' ∧ (Fresh ls c.cs ms m → Told ls c g ms m s' l.status) := by
  obtain ⟨-, h1, h2, -, -, -, h7, ⟨d, h8, h9⟩, -⟩ := sense_parts hst.sense
  obtain ⟨f1, -, f3, -⟩ := locate_frame hst.locate
  have hna : 0 < c.noAction := by have := hp.noAction; rw [hc.parts.noAction]; omega
  have hto : timedOutLevel c x = "" ∨ timedOutLevel c x = x.levelId := by
    rw [timedOut_eq ht.inv hna hst.sense]
    split_ifs
    · exact Or.inl rfl
    · exact Or.inr rfl
  obtain ⟨hb, hcase⟩ := framed_radio hc hp.toWindowed.framed hz.buffered hts h1
  rw [← windows_snoc, ← h2, ← f1, ← hst.state] at hb
  rw [← windows_snoc] at hcase
  -- the sensor
  have hsen : (Radio.updateMeasurements c.pre s.pre m).sensor = lastSensor g.sensor (ms ++ [m]) := by
    rw [update_sensor, lastSensor_snoc, ht.sensor]
  rw [hp.barometer, hsen] at h9
  unfold LevelEst.calculateLevel at h9
  simp only [if_true, Prod.mk.injEq] at h9
  obtain ⟨g1, g2⟩ := h9
  have g2' : s'.level.history = (LevelEst.detectLevelUsingHistory s.level.history d).2 := by
    rw [hst.state, f3, ← g2]
  have g3' : s'.level.barometer = (LevelEst.checkLevelChange s.level.barometer
      (LevelEst.detectLevelUsingHistory s.level.history d).1 (lastSensor g.sensor (ms ++ [m]))).2 := by
    rw [hst.state, f3, ← g2]
  -- the votes
  have hvote : (∀ h ∈ (windows ls c.cs (ms ++ [m])).pending, Radio.Admissible ls c.cs h.data) ∧
      (LevelEst.detectLevelUsingHistory s.level.history d).1 = s'.level.history.current ∧
      ∃ ds, List.Forall₂ (fun w d => FloorOf ls w.2 d) (closedWindows ls c.cs (ms ++ [m])) ds ∧
        Counted (votes (ds.map Level.id)) s'.level.history := by
    rw [g2']
    rcases hcase with ⟨hr, hncl, hcl, hpe, hpn⟩ | ⟨hclose, dd, win, hd, had, hwin, hcl, hpe, hho, -⟩
    · have hncl' : ¬ Closes ls c.cs ms m := hncl
      have hws : closedWindows ls c.cs (ms ++ [m]) = closedWindows ls c.cs ms := by
        rw [closedWindows_snoc, if_neg hncl']; simp
      rw [hr, detect_nothing hc] at h8
      cases h8
      have e0 : LevelEst.detectLevelUsingHistory s.level.history "" = (s.level.history.current, s.level.history) := by
        simp [LevelEst.detectLevelUsingHistory]
      rw [e0, hws]
      refine ⟨?_, rfl, hz.voted⟩
      by_cases hh : Heard ls c.cs m
      · rw [hpe hh]
        obtain ⟨dd, hd, ha⟩ := hh
        intro h hm
        rcases List.mem_append.mp hm with hm | hm
        · exact hz.pending h hm
        · rw [List.mem_singleton] at hm
          rw [hm, hd]
          exact ha
      · rw [hpn hh]; exact hz.pending
    · have hcloses : Closes ls c.cs ms m := ⟨⟨dd, hd, had⟩, hclose⟩
      have hws : closedWindows ls c.cs (ms ++ [m]) = closedWindows ls c.cs ms ++ [(m.ts, win)] := by
        rw [closedWindows_snoc, if_pos hcloses, hcl]; rfl
      have hadm : ∀ h ∈ win, Radio.Admissible ls c.cs h.data := by
        intro h hm
        rw [hwin] at hm
        rcases List.mem_append.mp hm with hm | hm
        · exact hz.pending h hm
        · rw [List.mem_singleton] at hm
          rw [hm]; exact had
      have hne : win ≠ [] := by rw [hwin]; simp
      obtain ⟨fl, hfl, hdet⟩ := handed_detected hc hp.toByZones hho hne hadm
      rw [hdet] at h8
      cases h8
      have hflm : fl ∈ ls := by obtain ⟨p, q, e, -⟩ := hfl; rw [e]; simp
      obtain ⟨ds, hds, hcnt⟩ := hz.voted
      obtain ⟨hsee, hsee1⟩ := counted_see hcnt (hc.map.named fl hflm)
      rw [← votes_snoc, ← List.map_singleton, ← List.map_append] at hsee
      refine ⟨?_, hsee1, ds ++ [fl], ?_, hsee⟩
      · rw [hpe]; intro h hm; cases hm
      · rw [hws]
        exact List.rel_append hds (List.Forall₂.cons hfl List.Forall₂.nil)
  obtain ⟨hpend, hnow, ds, hds, hcnt⟩ := hvote
  obtain ⟨os, hos, hcur⟩ := voted_signals hds hcnt
  obtain ⟨hbaro, o, ho, hlev⟩ := barometric_step (m := m) hz.baro hos (hnow.trans hcur) hz.used hc.map
  rw [← g3'] at hbaro
  rw [g1] at hlev
  -- the branch for a level
  have hinj : ∀ a ∈ ls, ∀ b ∈ ls, a.id = b.id → a = b := by
    intro a ha b hb' hab
    exact List.inj_on_of_nodup_map hc.map.nodup ha hb' hab
  have hlevel : ∀ lv ∈ ls, timedOutLevel c x = lv.id → ∃ i p ph, AtLevel ls c s x lv i p ph := by
    intro lv hlv h
    obtain ⟨lv', i, p, ph, ha⟩ := locate_level hc ht.inv hst.sensed ⟨lv, hlv, h.symm⟩
    have : lv' = lv := hinj _ ha.mem _ hlv (by rw [← h]; exact ha.id)
    subst this
    exact ⟨i, p, ph, ha⟩
  have hquiet : ∀ lv ∈ ls, timedOutLevel c x = lv.id → indoorPosition c s.indoorPos lv x.pre.currentTs x.radio =
        .ok (.NO_SOLUTION, Position.default, s.indoorPos) →
      s'.post.indoorPos = s.post.indoorPos ∧ l.status = .NO_SOLUTION ∧
        (s.post.indoorPos.isEmpty = true → s'.position = Position.default) ∧
        (s.post.indoorPos.isEmpty = false →
          (Estim.Box.Covers lv.geometry.boundingBox s.post.indoorPos.toXY ∧ m.ts - s.post.indoorPos.ts < ⌊1000 * c.cs.deadReckoningTime⌋ →
            s'.position = { s.post.indoorPos with ts := m.ts, x := downToCm s.post.indoorPos.x, y := downToCm s.post.indoorPos.y }) ∧
          (¬ (Estim.Box.Covers lv.geometry.boundingBox s.post.indoorPos.toXY ∧ m.ts - s.post.indoorPos.ts < ⌊1000 * c.cs.deadReckoningTime⌋) →
            s'.position = Position.default)) := by
    intro lv hlv h hind
    obtain ⟨i, p, ph, ha⟩ := hlevel lv hlv h
    have hi := ha.indoor
    rw [hind] at hi
    cases hi
    have hl := ha.located
    rw [hst.locate] at hl
    obtain ⟨k1, k2⟩ := plain_fused hp.toWindowed s.post x.pre.currentTs Position.default x.outdoorPos .NO_SOLUTION
    have k1' : (Post.fusePositions c.cs s.post x.pre.currentTs Position.default x.outdoorPos .NO_SOLUTION).2.indoorPos =
        s.post.indoorPos := k1
    obtain ⟨q1, q2, q3⟩ := framed_processed hp.toWindowed.framed hp.smoothing _ _ _ _ _ _ ha.processed
    rw [k2, k1'] at q2 q3
    rw [k1'] at q1
    rw [h7] at q3
    have es : s'.position = p.1 ∧ s'.post = p.2 ∧ l.status = .NO_SOLUTION := by
      rw [hst.state]
      cases hl
      exact ⟨rfl, rfl, rfl⟩
    rw [es.1, es.2.1]
    exact ⟨q1, es.2.2, q2, q3⟩
  have hnowhere : timedOutLevel c x = "" → s'.post = s.post ∧
      ((s.position.isEmpty = false → s.position.provider = .GNSS ∧ FixSeen g ms) →
        s'.position.isEmpty = false → s'.position.provider = .GNSS ∧ FixSeen g (ms ++ [m])) ∧
      (s'.position.isEmpty = true → l.status = .NO_LEVEL) := by
    intro h
    obtain ⟨-, a2, -, -, a3⟩ := locate_nowhere hc hst.locate h
    rw [hst.state]
    refine ⟨a2, fun hg he => ?_, fun he => ?_⟩
    · rcases a3 with ⟨b1, a4, -⟩ | ⟨-, a4, -⟩
      · rw [a4]
        exact ⟨(gnss_sense ht.gnss hst.sense).1 b1, fix_outdoor ht hst.sense b1⟩
      · rw [a4] at he ⊢
        exact ⟨(hg he).1, fix_more (hg he).2 m⟩
    · rcases a3 with ⟨b1, a4, -⟩ | ⟨-, -, a5⟩
      · rw [a4, b1] at he; cases he
      · exact a5
  have hearly : FloorUsed ls c.cs g (ms ++ [m]) none → timedOutLevel c x = "" ∧
      (s.position.isEmpty = false → s.position.provider = .GNSS ∧ FixSeen g ms) := by
    intro h
    obtain ⟨o0, ho0⟩ := hz.used
    refine ⟨?_, hz.early (used_none h ho0)⟩
    have : o = none := used_unique hc.map ho h
    rw [this] at hlev
    rcases hto with h0 | h0
    · exact h0
    · rw [h0, hlev]; rfl
  have hfl : ∀ lv, FloorUsed ls c.cs g (ms ++ [m]) (some lv) → x.levelId = lv.id := by
    intro lv h
    rw [hlev, used_unique hc.map ho h]; rfl
  by_cases hpl : ∃ fl win, Places ls c.cs g ms m fl win
  · -- a place is given
    obtain ⟨fl, win, hpl⟩ := hpl
    have hflm := used_mem hpl.floor
    rcases hcase with ⟨-, hncl, -⟩ | ⟨-, dd, win', -, -, -, hcl, -, hho, -⟩
    · exact absurd hpl.closes hncl
    have hwin : win' = win := by
      have := hpl.window
      rw [hcl] at this
      cases this
      rfl
    subst hwin
    have hf : Fresh ls c.cs ms m :=
      ⟨ms, m, [], rfl, hpl.closes.1, by simp, by have := hp.noSignal; omega⟩
    have hlvt : timedOutLevel c x = fl.id := by
      rw [fresh_level hc hp.noAction ht hf hst.sense, hfl fl hpl.floor]
    obtain ⟨i, p, ph, ha⟩ := hlevel fl hflm hlvt
    obtain ⟨q, b, t, hq, hzone⟩ := handed_zone_on hc hp.toByZones hho fl hpl.heard s.indoorPos x.pre.currentTs
    have hi := ha.indoor
    rw [hq] at hi
    cases hi
    rw [h7] at hzone
    have hl := ha.located
    rw [hst.locate] at hl
    obtain ⟨k1, k2⟩ := plain_fused hp.toWindowed s.post x.pre.currentTs q x.outdoorPos .OK
    have k1' : (Post.fusePositions c.cs s.post x.pre.currentTs q x.outdoorPos .OK).2.indoorPos = q := by
      rw [k1, hzone.isEmpty]; rfl
    obtain ⟨q1, q2, q3⟩ := framed_processed hp.toWindowed.framed hp.smoothing _ _ _ _ _ _ ha.processed
    rw [k2, k1'] at q3
    rw [k1'] at q1
    rw [h7] at q3
    have q3 := q3 hzone.isEmpty
    rw [hzone.ts] at q3
    have es : s'.position = p.1 ∧ s'.post = p.2 ∧ l.status = .OK := by
      rw [hst.state]
      cases hl
      exact ⟨rfl, rfl, rfl⟩
    have hpos : s'.post.indoorPos = q := by rw [es.2.1]; exact q1
    have hnone : ¬ FloorUsed ls c.cs g (ms ++ [m]) none := fun h => by
      have := used_unique hc.map h hpl.floor
      cases this
    refine ⟨⟨hb, hpend, ⟨ds, hds, hcnt⟩, ⟨o, ho⟩, hbaro, ?_, ?_, fun h => absurd h hnone⟩, fun _ => ⟨fun h => absurd h hnone, ?_, ?_, ?_⟩⟩
    · intro lv t0 w hl'
      obtain ⟨rfl, rfl, rfl⟩ := last_now_only hc.map hpl hl'
      rw [hpos]
      exact ⟨b, t, hzone⟩
    · intro h
      exact absurd hpl ((noPlace_before h).2 _ _)
    · intro lv fl' t0 w hu hl' hbox hage
      obtain ⟨rfl, rfl, rfl⟩ := last_now_only hc.map hpl hl'
      cases used_unique hc.map hu hpl.floor
      rw [hpos] at hbox ⊢
      rw [es.1]
      exact q3.1 ⟨hbox, hage⟩
    · intro lv fl' t0 w hu hl' hbad
      obtain ⟨rfl, rfl, rfl⟩ := last_now_only hc.map hpl hl'
      cases used_unique hc.map hu hpl.floor
      rw [hpos] at hbad
      rw [es.1]
      exact ⟨q3.2 hbad, fun _ => es.2.2, fun h => absurd hpl (h _ _)⟩
    · intro lv _ h
      exact absurd hpl ((noPlace_before h).2 _ _)
  · -- no place is given
    push Not at hpl
    -- the floor in use is not heard
    have hsil : ∀ lv, FloorUsed ls c.cs g (ms ++ [m]) (some lv) →
        x.radio.filter (fun e => (lv.transmitter e.id).isSome) = [] := by
      intro lv hu
      rcases hcase with ⟨hr, -⟩ | ⟨hclose, dd, win, hd, had, -, hcl, -, hho, -⟩
      · rw [hr]; rfl
      · rw [handed_nil (handed_floor hho lv)]
        by_contra hne
        exact hpl lv win ⟨⟨⟨dd, hd, had⟩, hclose⟩, hcl, hu, hne⟩
    -- with a level
    have hat : ∀ lv, FloorUsed ls c.cs g (ms ++ [m]) (some lv) → timedOutLevel c x = lv.id → _ := fun lv hu h =>
      hquiet lv (used_mem hu) h (handed_silent hc hp.toByZones lv (hsil lv hu) _ _)
    have hpost : s'.post.indoorPos = s.post.indoorPos := by
      rcases hto with h | h
      · rw [(hnowhere h).1]
      · cases o with
        | none =>
          rw [hlev] at h
          rw [(hnowhere h).1]
        | some lv => exact (hat lv ho (h.trans (hfl lv ho))).1
    refine ⟨⟨hb, hpend, ⟨ds, hds, hcnt⟩, ⟨o, ho⟩, hbaro, ?_, ?_, ?_⟩, fun hf => ?_⟩
    · intro lv t0 win hl'
      rw [hpost]
      exact hz.place lv t0 win ((last_before hpl).mp hl')
    · intro h
      rw [hpost]
      exact hz.noPlace (noPlace_before h).1
    · intro h
      exact (hnowhere (hearly h).1).2.1 (hearly h).2
    · have hflv : ∀ lv, FloorUsed ls c.cs g (ms ++ [m]) (some lv) → timedOutLevel c x = lv.id := by
        intro lv hu
        rw [fresh_level hc hp.noAction ht hf hst.sense, hfl lv hu]
      refine ⟨fun h he => (hnowhere (hearly h).1).2.2 he, ?_, ?_, ?_⟩
      · intro lv fl t0 win hu hl' hbox hage
        obtain ⟨q1, q2, -, q3⟩ := hat lv hu (hflv lv hu)
        obtain ⟨b, t, z4⟩ := hz.place fl t0 win ((last_before hpl).mp hl')
        have q3 := q3 z4.isEmpty
        rw [z4.ts] at q3
        rw [q1] at hbox ⊢
        exact q3.1 ⟨hbox, hage⟩
      · intro lv fl t0 win hu hl' hbad
        obtain ⟨q1, q2, -, q3⟩ := hat lv hu (hflv lv hu)
        obtain ⟨b, t, z4⟩ := hz.place fl t0 win ((last_before hpl).mp hl')
        have q3 := q3 z4.isEmpty
        rw [z4.ts] at q3
        rw [q1] at hbad
        exact ⟨q3.2 hbad, fun ⟨lv', win', h⟩ => absurd h (hpl lv' win'), fun _ => q2⟩
      · intro lv hu hno
        obtain ⟨q1, q2, q4, -⟩ := hat lv hu (hflv lv hu)
        exact ⟨q4 (hz.noPlace (noPlace_before hno).1), q2⟩

theorem pressed_runs {ls : List Level} {c : Cfg} (hc : Client ls c) (hp : PressureZones c.cs) (g : Garbage) (ms : List Measurement)
    (hts : ∀ m ∈ ms, 0 < m.ts) {s : State} {outs : List (Output × DebugState)} (h : runs c (init c g) ms = .ok (s, outs)) :
    Pressed ls c g ms s := by
  induction ms using List.reverseRecOn generalizing s outs with
  | nil => cases h; exact pressed_init ls c hp g
  | append_singleton ms m ih =>
    obtain ⟨s1, outs1, r, h1, h2, -⟩ := runs_snoc h
    have ht := traced_runs hc g ms h1
    obtain ⟨-, x, l, hst, -⟩ := traced_step hc ht h2
    exact (pressed_step hc hp ht (ih (fun m hm => hts m (by simp [hm])) h1) (hts m (by simp)) hst).1

/-- **C127.** A client with any number of floors, plain zone settings and a barometer, after any history of measurements with
positive times, gets a measurement while the last admitted signal is younger than the no-signal threshold.  There is exactly one
floor in use, or none: the one that the signals gave when the floor was last free to change.

With no floor in use the answer is NO_LEVEL or a position of the satellite receiver.  With the floor `lv` in use and no place given
so far, the answer is NO_SOLUTION.  Otherwise let `fl` be the floor that was in use when the last place was given, and `b` its
strongest transmitter in that window: if the place of `b` is in the bounding box of the floor `lv` and younger than the dead
reckoning time, the answer is OK, names `fl` and shows the place of `b` (rounded down to centimetres); if not, the answer has no
place. -/
theorem C127_answers {ls : List Level} {c : Cfg} (hc : Client ls c) (hp : PressureZones c.cs) (g : Garbage)
    (batches : List (List Measurement)) {s : State} {outs : List (Output × DebugState)}
    (h : navigateAll c (init c g) batches = .ok (s, outs)) (m : Measurement)
    (hts : ∀ e ∈ taken batches ++ [m], 0 < e.ts) (hf : Fresh ls c.cs (taken batches) m) :
    ∃ s' out dbg o, navigate c s [m] = .ok (s', [(out, dbg)]) ∧ FloorUsed ls c.cs g (taken batches ++ [m]) o ∧
      (o = none → (out.status = .NO_LEVEL ∧ Blank out) ∨ (out.status = .OK ∧ out.provider = some .GNSS ∧ FixSeen g (taken batches ++ [m]))) ∧
      (∀ lv, o = some lv → NoPlace ls c.cs g (taken batches ++ [m]) → out.status = .NO_SOLUTION ∧ Blank out) ∧
      (∀ lv fl t0 win, o = some lv → LastPlace ls c.cs g (taken batches ++ [m]) fl t0 win →
        ∃ b t, Strongest (onFloor fl win) b ∧ fl.transmitter b = some t ∧ dbg.indoorPosition = ⟨t.point.x, t.point.y⟩ ∧
        (Estim.Box.Covers lv.geometry.boundingBox ⟨t.point.x, t.point.y⟩ ∧ m.ts - t0 < ⌊1000 * c.cs.deadReckoningTime⌋ →
          out.status = .OK ∧ out.posLevel = fl.id ∧ out.provider = some .INDOOR ∧
          (⟨out.posLatitude, out.posLongitude⟩ : Geo.GeoPoint) =
            Geo.localToGps ⟨downToCm t.point.x, downToCm t.point.y⟩ fl.bindingPoint ∧
          ∃ r, out.posR = some r ∧ ∀ A B a b', c.indoor = .zone A B → StdMap.find? A fl.id = some a →
            StdMap.find? B fl.id = some b' → b' ≠ 0 → 1 < r ∧ r = Real.exp ((a - meanRssi (onFloor fl win) b) / (2 * b')) + 1) ∧
        (¬ (Estim.Box.Covers lv.geometry.boundingBox ⟨t.point.x, t.point.y⟩ ∧ m.ts - t0 < ⌊1000 * c.cs.deadReckoningTime⌋) →
          Blank out ∧ ((∃ lv' win', Places ls c.cs g (taken batches) m lv' win') → out.status = .NAVIGATION_ERROR) ∧
          ((∀ lv' win', ¬ Places ls c.cs g (taken batches) m lv' win') → out.status = .NO_SOLUTION))) := by
  have ht := history_traced hc h
  rw [navigateAll_eq] at h
  have hz := pressed_runs hc hp g _ (fun e he => hts e (by simp [he])) h
  obtain ⟨s', out, dbg, x, l, h1, hst, hdbg⟩ := one_parts hc ht.inv m
  obtain ⟨hz', han⟩ := pressed_step hc hp ht hz (hts m (by simp)) hst
  have han := han hf
  obtain ⟨o, ho⟩ := hz'.used
  obtain ⟨hsh, -, herr⟩ := stepped_shows hc hst
  have hempty : s'.position.isEmpty = true → Blank out := by
    intro he
    rcases hsh with ⟨-, -, hb⟩ | ⟨he', -⟩
    · exact hb
    · rw [he] at he'; cases he'
  refine ⟨s', out, dbg, o, h1, ho, ?_, ?_, ?_⟩
  · rintro rfl
    cases he : s'.position.isEmpty with
    | true =>
      left
      refine ⟨?_, hempty he⟩
      rw [herr he, han.nowhere ho he]
      rfl
    | false =>
      right
      rcases hsh with ⟨he', -⟩ | ⟨-, hok, lv', -, -, -, -, -, -, e5⟩
      · rw [he] at he'; cases he'
      · obtain ⟨k1, k2⟩ := hz'.early ho he
        exact ⟨hok, by rw [e5, k1], k2⟩
  · rintro lv rfl hno
    obtain ⟨a1, a2⟩ := han.unplaced lv ho hno
    have he : s'.position.isEmpty = true := by rw [a1]; rfl
    refine ⟨?_, hempty he⟩
    rw [herr he, a2]
    rfl
  · rintro lv fl t0 win rfl hlast
    obtain ⟨b, t, hzone⟩ := hz'.place fl t0 win hlast
    have hxy : s'.post.indoorPos.toXY = ⟨t.point.x, t.point.y⟩ := by
      simp [Position.toXY, hzone.x, hzone.y]
    have hflm : fl ∈ ls := by
      obtain ⟨_, _, _, -, hpl, -⟩ := hlast
      exact used_mem hpl.floor
    refine ⟨b, t, hzone.strongest, hzone.tx, ?_, ?_, ?_⟩
    · rw [hdbg]
      simp [debugState, hzone.x, hzone.y]
    · rintro ⟨hbox, hage⟩
      have hpos := han.inside lv fl t0 win ho hlast (by rw [hxy]; exact hbox) hage
      rcases hsh with ⟨he, -⟩ | ⟨he, hok, lv', hlv', hid, e1, e2, e3, e4, e5⟩
      · rw [hpos] at he
        have := hzone.isEmpty
        dsimp only at he
        rw [this] at he
        cases he
      have : lv' = fl := by
        apply List.inj_on_of_nodup_map hc.map.nodup hlv' hflm
        rw [hid, hpos]
        exact hzone.levelId
      subst this
      refine ⟨hok, ?_, ?_, ?_, s'.post.indoorPos.deviationM, ?_, hzone.formula⟩
      · rw [e1, hpos]; exact hzone.levelId
      · rw [e5, hpos, Option.some.injEq]; exact hzone.provider
      · rw [e2, e3, hpos]
        simp only [Position.toXY, hzone.x, hzone.y]
      · rw [e4, hpos]
    · intro hbad
      obtain ⟨hpos, hs1, hs2⟩ := han.outside lv fl t0 win ho hlast (by rw [hxy]; exact hbad)
      have hemp : s'.position.isEmpty = true := by rw [hpos]; rfl
      have hst' := herr hemp
      refine ⟨hempty hemp, fun h => ?_, fun h => ?_⟩
      · rw [hst', hs1 h]; rfl
      · rw [hst', hs2 h]; rfl

/-- **C127.** There is at most one floor in use, and either a last place or none. -/
theorem C127_unique {ls : List Level} (hm : GoodMap ls) (cs : CommonSettings) (g : Garbage) (ms : List Measurement) :
    (∀ o o', FloorUsed ls cs g ms o → FloorUsed ls cs g ms o' → o = o') ∧
    ((∃ lv t0 win, LastPlace ls cs g ms lv t0 win) ∨ NoPlace ls cs g ms) :=
  ⟨fun _ _ => used_unique hm, last_or_none ls cs g ms⟩

/-- **C127.** As long as the floor is not free to change it stays the same, whatever signals arrive. -/
theorem C127_held {ls : List Level} {cs : CommonSettings} {g : Garbage} {ms more : List Measurement} {o : Option Level}
    (h : FloorUsed ls cs g ms o) (hheld : ∀ a b, more = a ++ b → a ≠ [] → ¬ Free g (ms ++ a)) :
    FloorUsed ls cs g (ms ++ more) o := by
  induction more using List.reverseRecOn with
  | nil => simpa using h
  | append_singleton more m ih =>
    rw [← List.append_assoc, used_held]
    · exact ih (fun a b e hne => hheld a (b ++ [m]) (by rw [e]; simp) hne)
    · rw [List.append_assoc]
      exact hheld (more ++ [m]) [] (by simp) (by simp)

/-- **C127.** If 201 pressures are counted before the first window of signals is closed, then there is no floor in use, and no
indoor position is answered, until the pressure shows a climb of more than two metres, whatever signals arrive. -/
theorem C127_stuck {ls : List Level} {cs : CommonSettings} {g : Garbage} {ms more : List Measurement}
    (hw : closedWindows ls cs ms = []) (hfull : ∀ a b, ms ++ more = a ++ b → ms.length < a.length → 201 ≤ (counted g a).length)
    (hstill : ∀ a b, ms ++ more = a ++ b → ¬ LevelEst.Climbed (counted g a)) :
    FloorUsed ls cs g (ms ++ more) none := by
  have h0 : FloorUsed ls cs g ms none := by
    -- the last free moment of `ms`
    have key : ∀ k : List Measurement, closedWindows ls cs k = [] → FloorUsed ls cs g k none := by
      intro k
      induction k using List.reverseRecOn with
      | nil => intro _; exact used_nil
      | append_singleton k m ih =>
        intro hk
        by_cases hf : Free g (k ++ [m])
        · exact (used_free hf none).mpr hk
        · rw [used_held hf]
          obtain ⟨t, e⟩ := windows_prefix ls cs k [m]
          rw [hk] at e
          exact ih (List.append_eq_nil_iff.mp e.symm).1
    exact key ms hw
  refine C127_held h0 ?_
  intro a b e hne hfree
  have hlen : 0 < a.length := List.length_pos_iff.mpr hne
  rcases hfree with hf | hf
  · have := hfull (ms ++ a) b (by rw [e]; simp) (by simp; omega)
    omega
  · exact hstill (ms ++ a) b (by rw [e]; simp) hf

end Verif.Pressure
