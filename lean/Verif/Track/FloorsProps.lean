import Verif.Track.FloorsLemmas

/-!
# Property theorems for C124: what a client with its default settings answers in a building
-/

namespace Verif.Track

open Verif.Levels Verif.Nav Verif.Floors
open Verif.Geo (XYPoint)
open Verif.Knn (Result)

/-- The journey of a history. -/
noncomputable def journeyOf (ls : List Level) (c : Cfg) (ms : List Measurement) : Option Journey :=
  journey c.cs c.env.allowed (floorFixes ls (closedWindows ls c.cs ms))

/-- What the state of the client holds after the measurements `ms`. -/
structure Toured (ls : List Level) (c : Cfg) (ms : List Measurement) (s : State) : Prop where
  buffered : Buffered c.cs (windows ls c.cs ms) s.pre.buffer
  pending : ∀ h ∈ (windows ls c.cs ms).pending, Radio.Admissible ls c.cs h.data
  voted : ∃ ds, List.Forall₂ (fun w d => FloorOf ls w.2 d) (closedWindows ls c.cs ms) ds ∧
    Counted (votes (ds.map Level.id)) s.level.history
  place : closedWindows ls c.cs ms ≠ [] → ∃ lv ∈ ls, s.level.history.current = lv.id ∧
    ∃ t0 win b t, LastHeardOn lv (closedWindows ls c.cs ms) t0 win ∧ ZoneAt c lv t0 (onFloor lv win) b t s.post.indoorPos ∧
      (Estim.Box.Covers lv.geometry.boundingBox s.post.indoorPos.toXY →
        ∃ j, journeyOf ls c ms = some j ∧ j.floor = lv ∧ j.motion.time = t0)
  travels : Travels c.cs (journeyOf ls c ms) s.post
  times : ∀ j, journeyOf ls c ms = some j → j.floor ∈ ls ∧ ∃ o, (windows ls c.cs ms).opened = some o ∧ j.motion.time ≤ o

theorem toured_init (ls : List Level) (c : Cfg) (hp : SmoothZones c.cs) (g : Garbage) : Toured ls c [] (init c g) := by
  have hs := span_pos hp.toWindowed
  have hj : journeyOf ls c [] = none := by
    unfold journeyOf
    rw [closedWindows_nil]
    rfl
  constructor
  · constructor
    · rfl
    · exact fun _ => ⟨rfl, rfl⟩
    · intro t h; cases h
    · exact hs
  · intro h hh; cases hh
  · exact ⟨[], List.Forall₂.nil, rfl, rfl, fun _ => rfl⟩
  · intro h; exact absurd rfl h
  · rw [hj]; exact travels_init c.cs hp.filter
  · intro j h; rw [hj] at h; cases h

/-- The position shows the journey. -/
structure ShowsOn (lv : Level) (j : Journey) (r : ℝ) (p : Position) : Prop where
  floor : j.floor = lv
  isEmpty : p.isEmpty = false
  level : p.levelId = lv.id
  provider : p.provider = .INDOOR
  deviation : p.deviationM = r
  place : p.toXY = shown lv.geometry.boundingBox j.motion.place

/-- What the client holds after a recent signal. -/
structure AnsweredOn (ls : List Level) (c : Cfg) (ms : List Measurement) (m : Measurement) (s' : State) (st : NavigationStatus) : Prop where
  inside : ∀ lv ∈ ls, s'.level.history.current = lv.id → ∀ t0 win, LastHeardOn lv (closedWindows ls c.cs (ms ++ [m])) t0 win →
    Estim.Box.Covers lv.geometry.boundingBox s'.post.indoorPos.toXY → m.ts - t0 < ⌊1000 * c.cs.deadReckoningTime⌋ →
    ∃ j, journeyOf ls c (ms ++ [m]) = some j ∧ ShowsOn lv j s'.post.indoorPos.deviationM s'.position
  outside : ∀ lv ∈ ls, s'.level.history.current = lv.id → ∀ t0 win, LastHeardOn lv (closedWindows ls c.cs (ms ++ [m])) t0 win →
    ¬ (Estim.Box.Covers lv.geometry.boundingBox s'.post.indoorPos.toXY ∧ m.ts - t0 < ⌊1000 * c.cs.deadReckoningTime⌋) →
    s'.position = Position.default ∧ (ClosesOn ls c.cs lv ms m → st = .OK) ∧ (¬ ClosesOn ls c.cs lv ms m → st = .NO_SOLUTION)

/-- The floor in use, from the state. -/
theorem inUse_of {ls : List Level} (hm : GoodMap ls) {ws : List (Int × List RadioMeasurement)} {ds : List Level} {h : LevelEst.History}
    (hds : List.Forall₂ (fun w d => FloorOf ls w.2 d) ws ds) (hcnt : Counted (votes (ds.map Level.id)) h) {lv : Level} (hlv : lv ∈ ls)
    (hcur : h.current = lv.id) : FloorInUse ls ws lv := by
  refine ⟨hlv, ds, hds, ?_⟩
  have := hcnt.current
  rw [hcur] at this
  cases hu : (votes (ds.map Level.id)).used with
  | none =>
    rw [hu] at this
    exact absurd this (hm.named lv hlv)
  | some u =>
    rw [hu] at this
    rw [this]; rfl

theorem toured_step {ls : List Level} {c : Cfg} (hc : Client ls c) (hp : SmoothZones c.cs) {g : Garbage} {ms : List Measurement} {s : State}
    (ht : Traced ls c g ms s) (hz : Toured ls c ms s) {m : Measurement} (hts : 0 < m.ts) {s' : State} {out : Output} {x : Sensed}
    {l : Located} (hst : Stepped ls c s m s' out x l) :
    Toured ls c (ms ++ [m]) s' ∧ (closedWindows ls c.cs (ms ++ [m]) ≠ [] → Fresh ls c.cs ms m → AnsweredOn ls c ms m s' l.status) := by
  obtain ⟨-, h1, h2, -, -, -, h7, ⟨d, h8, h9⟩, -⟩ := sense_parts hst.sense
  obtain ⟨f1, -, f3, -⟩ := locate_frame hst.locate
  have hna : 0 < c.noAction := by have := hp.noAction; rw [hc.parts.noAction]; omega
  have hto : timedOutLevel c x = "" ∨ timedOutLevel c x = x.levelId := by
    rw [timedOut_eq ht.inv hna hst.sense]
    split_ifs
    · exact Or.inl rfl
    · exact Or.inr rfl
  obtain ⟨hb, hcase⟩ := framed_radio hc hp.toWindowed.framed hz.buffered hts h1
  rw [← windows_snoc, ← h2, ← f1, ← hst.state] at hb
  rw [← windows_snoc] at hcase
  rw [hp.barometer] at h9
  unfold LevelEst.calculateLevel at h9
  simp only [Bool.false_eq_true, if_false, Prod.mk.injEq] at h9
  obtain ⟨g1, g2⟩ := h9
  have g2' : s'.level.history = (LevelEst.detectLevelUsingHistory s.level.history d).2 := by
    rw [hst.state, f3, ← g2]
  have hinj : ∀ a ∈ ls, ∀ b ∈ ls, a.id = b.id → a = b := by
    intro a ha b hb' hab
    exact List.inj_on_of_nodup_map hc.map.nodup ha hb' hab
  -- the branch for a level
  have hlevel : ∀ lv ∈ ls, timedOutLevel c x = lv.id → ∃ i p ph, AtLevel ls c s x lv i p ph := by
    intro lv hlv h
    obtain ⟨lv', i, p, ph, ha⟩ := locate_level hc ht.inv hst.sensed ⟨lv, hlv, h.symm⟩
    have : lv' = lv := hinj _ ha.mem _ hlv (by rw [← h]; exact ha.id)
    subst this
    exact ⟨i, p, ph, ha⟩
  have hopen : ∀ o, (windows ls c.cs ms).opened = some o → ∃ o', (windows ls c.cs (ms ++ [m])).opened = some o' ∧
      (¬ Closes ls c.cs ms m → o' = o) := by
    intro o ho
    rw [windows_snoc]
    by_cases hh : Heard ls c.cs m
    · obtain ⟨d', hd', ha'⟩ := hh
      obtain ⟨md, mts⟩ := m
      dsimp only at hd'
      subst hd'
      rw [take_heard _ ha']
      unfold Windows.hear
      dsimp only
      split_ifs with hcl
      · exact ⟨_, rfl, fun h => absurd ⟨⟨d', rfl, ha'⟩, hcl⟩ h⟩
      · exact ⟨_, rfl, fun _ => by rw [ho]; rfl⟩
    · rw [take_not_heard _ hh]
      exact ⟨o, ho, fun _ => rfl⟩
  -- a step in which the floor in use is not heard
  have hquiet : ∀ lv ∈ ls, timedOutLevel c x = lv.id → indoorPosition c s.indoorPos lv x.pre.currentTs x.radio =
        .ok (.NO_SOLUTION, Position.default, s.indoorPos) →
      ∀ t0 win b t, ZoneAt c lv t0 win b t s.post.indoorPos → (Estim.Box.Covers lv.geometry.boundingBox s.post.indoorPos.toXY →
        ∃ j, journeyOf ls c ms = some j ∧ j.floor = lv ∧ j.motion.time = t0) →
      s'.post.indoorPos = s.post.indoorPos ∧ l.status = .NO_SOLUTION ∧ Travels c.cs (journeyOf ls c ms) s'.post ∧
          (Estim.Box.Covers lv.geometry.boundingBox s.post.indoorPos.toXY ∧ m.ts - t0 < ⌊1000 * c.cs.deadReckoningTime⌋ →
            ∃ j, journeyOf ls c ms = some j ∧ ShowsOn lv j s.post.indoorPos.deviationM s'.position) ∧
          (¬ (Estim.Box.Covers lv.geometry.boundingBox s.post.indoorPos.toXY ∧ m.ts - t0 < ⌊1000 * c.cs.deadReckoningTime⌋) →
            s'.position = Position.default) := by
    intro lv hlv h hind t0 win b t z4 hjn
    obtain ⟨i, p, ph, ha⟩ := hlevel lv hlv h
    have hi := ha.indoor
    rw [hind] at hi
    cases hi
    have hl := ha.located
    rw [hst.locate] at hl
    obtain ⟨k1, k2⟩ := plain_fused hp.toWindowed s.post x.pre.currentTs Position.default x.outdoorPos .NO_SOLUTION
    have k1' : (Post.fusePositions c.cs s.post x.pre.currentTs Position.default x.outdoorPos .NO_SOLUTION).2.indoorPos =
        s.post.indoorPos := k1
    have hpr := ha.processed
    rw [k2, k1'] at hpr
    obtain ⟨q1, q2, q3⟩ := travels_step hp (hc.map.named lv hlv) (travels_fuse hz.travels _ _ _ _)
      (fun k hk e => hinj _ (hz.times k hk).1 _ hlv e) s.post.indoorPos (fun _ => ⟨z4.levelId, z4.provider⟩) _ _ hpr (by
        intro hbx k hk _
        obtain ⟨j, e1, -, e3⟩ := hjn hbx
        rw [hk, Option.some.injEq] at e1
        rw [z4.ts, e1]; exact e3.le)
    rw [k1'] at q1 q2
    rw [h7, z4.ts] at q2 q3
    have es : s'.position = p.1 ∧ s'.post = p.2 ∧ l.status = .NO_SOLUTION := by
      rw [hst.state]
      cases hl
      exact ⟨rfl, rfl, rfl⟩
    rw [es.1, es.2.1]
    have same : ∀ j, journeyOf ls c ms = some j → j.floor = lv → j.motion.time = t0 →
        onward c.cs c.env.allowed (journeyOf ls c ms) lv s.post.indoorPos = j := by
      intro j h1 h2 h3
      unfold onward
      rw [if_pos ⟨j, h1, h2, by rw [z4.ts]; exact h3⟩, h1]
      rfl
    refine ⟨q1, es.2.2, ?_, ?_, ?_⟩
    · by_cases hbx : Estim.Box.Covers lv.geometry.boundingBox s.post.indoorPos.toXY ∧ m.ts - t0 < ⌊1000 * c.cs.deadReckoningTime⌋
      · obtain ⟨j, h1, h2, h3⟩ := hjn hbx.1
        obtain ⟨r1, -⟩ := q2 ⟨z4.isEmpty, hbx⟩
        rw [same j h1 h2 h3] at r1
        rw [h1]; exact r1
      · exact (q3 (fun h => hbx h.2)).2
    · intro hbx
      obtain ⟨j, h1, h2, h3⟩ := hjn hbx.1
      obtain ⟨-, r2, r3, r4, r5, r6⟩ := q2 ⟨z4.isEmpty, hbx⟩
      rw [same j h1 h2 h3] at r6
      exact ⟨j, h1, h2, r2, r3, r4, r5, r6⟩
    · exact fun hbx => (q3 (fun h => hbx h.2)).1
  rcases hcase with ⟨hr, hncl, hcl, hpe, hpn⟩ | ⟨hclose, dd, win, hd, had, hwin, hcl, hpe, hho, -⟩
  · -- nothing is handed out
    have hncl' : ¬ Closes ls c.cs ms m := hncl
    have hws : closedWindows ls c.cs (ms ++ [m]) = closedWindows ls c.cs ms := by
      rw [closedWindows_snoc, if_neg hncl']; simp
    rw [hr, detect_nothing hc] at h8
    cases h8
    have e0 : LevelEst.detectLevelUsingHistory s.level.history "" = (s.level.history.current, s.level.history) := by
      simp [LevelEst.detectLevelUsingHistory]
    rw [e0] at g1 g2'
    dsimp only at g1 g2'
    have hpend : ∀ h ∈ (windows ls c.cs (ms ++ [m])).pending, Radio.Admissible ls c.cs h.data := by
      by_cases hh : Heard ls c.cs m
      · rw [hpe hh]
        obtain ⟨dd, hd, ha⟩ := hh
        intro h hm
        rcases List.mem_append.mp hm with hm | hm
        · exact hz.pending h hm
        · rw [List.mem_singleton] at hm
          rw [hm, hd]
          exact ha
      · rw [hpn hh]; exact hz.pending
    have hnow : timedOutLevel c x = "" → s'.post = s.post := by
      intro h
      obtain ⟨-, a2, -⟩ := locate_nowhere hc hst.locate h
      rw [hst.state]
      exact a2
    have hjo : journeyOf ls c (ms ++ [m]) = journeyOf ls c ms := by unfold journeyOf; rw [hws]
    have hat := fun (lv : Level) (hlv : lv ∈ ls) (h : timedOutLevel c x = lv.id) =>
      hquiet lv hlv h (by rw [hr]; exact handed_silent hc hp.toByZones lv rfl _ _)
    refine ⟨⟨hb, hpend, by rw [hws, g2']; exact hz.voted, ?_, ?_, ?_⟩, fun hne hf => ?_⟩
    · rw [hws, hjo]
      intro hne
      obtain ⟨lv, hlv, z2, t0, win, b, t, z3, z4, z5⟩ := hz.place hne
      rw [g2']
      refine ⟨lv, hlv, z2, t0, win, b, t, z3, ?_⟩
      rcases hto with h | h
      · rw [hnow h]; exact ⟨z4, z5⟩
      · rw [← g1, z2] at h
        rw [(hat lv hlv h _ _ _ _ z4 z5).1]; exact ⟨z4, z5⟩
    · rw [hjo]
      rcases hto with h | h
      · rw [hnow h]; exact hz.travels
      · by_cases hne : closedWindows ls c.cs ms = []
        · obtain ⟨ds, hds, hcnt⟩ := hz.voted
          rw [hne] at hds
          cases hds
          have : s.level.history.current = "" := hcnt.current
          rw [hnow (by rw [h, ← g1]; exact this)]; exact hz.travels
        · obtain ⟨lv, hlv, z2, t0, win, b, t, z3, z4, z5⟩ := hz.place hne
          rw [← g1, z2] at h
          exact (hat lv hlv h _ _ _ _ z4 z5).2.2.1
    · rw [hjo]
      intro j hj
      obtain ⟨o1, o, o2, o3⟩ := hz.times j hj
      obtain ⟨o', p1, p2⟩ := hopen o o2
      exact ⟨o1, o', p1, by rw [p2 hncl']; exact o3⟩
    · have hfl := fresh_level hc hp.noAction ht hf hst.sense
      rw [hws] at hne
      obtain ⟨lv, hlv, z2, t0, win, b, t, z3, z4, z5⟩ := hz.place hne
      have k1 : timedOutLevel c x = lv.id := by rw [hfl, ← g1]; exact z2
      obtain ⟨q1, q2, -, q3, q4⟩ := hat lv hlv k1 _ _ _ _ z4 z5
      constructor
      · intro lv' hlv' hcur t0' win' hl hbox hage
        have : lv' = lv := hinj _ hlv' _ hlv (by rw [← hcur, g2', z2])
        subst this
        rw [hws] at hl
        obtain ⟨rfl, rfl⟩ := lastHeard_unique z3 hl
        rw [q1] at hbox ⊢
        rw [hjo]
        exact q3 ⟨hbox, hage⟩
      · intro lv' hlv' hcur t0' win' hl hbad
        have : lv' = lv := hinj _ hlv' _ hlv (by rw [← hcur, g2', z2])
        subst this
        rw [hws] at hl
        obtain ⟨rfl, rfl⟩ := lastHeard_unique z3 hl
        rw [q1] at hbad
        exact ⟨q4 hbad, fun h => absurd h.1 hncl', fun _ => q2⟩
  · -- a window is closed
    have hheard : Heard ls c.cs m := ⟨dd, hd, had⟩
    have hcloses : Closes ls c.cs ms m := ⟨hheard, hclose⟩
    have hws : closedWindows ls c.cs (ms ++ [m]) = closedWindows ls c.cs ms ++ [(m.ts, win)] := by
      rw [closedWindows_snoc, if_pos hcloses, hcl]; rfl
    have hadm : ∀ h ∈ win, Radio.Admissible ls c.cs h.data := by
      intro h hm
      rw [hwin] at hm
      rcases List.mem_append.mp hm with hm | hm
      · exact hz.pending h hm
      · rw [List.mem_singleton] at hm
        rw [hm]; exact had
    have hne : win ≠ [] := by rw [hwin]; simp
    obtain ⟨fl, hfl, hdet⟩ := handed_detected hc hp.toByZones hho hne hadm
    rw [hdet] at h8
    cases h8
    have hflm : fl ∈ ls := by obtain ⟨p, q, e, -⟩ := hfl; rw [e]; simp
    have hflh : onFloor fl win ≠ [] := by obtain ⟨p, q, -, e, -⟩ := hfl; exact e
    obtain ⟨ds, hds, hcnt⟩ := hz.voted
    obtain ⟨hsee, hsee1⟩ := counted_see hcnt (hc.map.named fl hflm)
    rw [← g2'] at hsee hsee1
    rw [← votes_snoc, ← List.map_singleton, ← List.map_append] at hsee
    have hvoted : List.Forall₂ (fun w d => FloorOf ls w.2 d) (closedWindows ls c.cs ms ++ [(m.ts, win)]) (ds ++ [fl]) :=
      List.rel_append hds (List.Forall₂.cons hfl List.Forall₂.nil)
    have hf : Fresh ls c.cs ms m :=
      ⟨ms, m, [], rfl, hheard, by simp, by have := hp.noSignal; omega⟩
    -- the floor in use now, and whether it is heard
    have hused : ∃ lv ∈ ls, s'.level.history.current = lv.id ∧
        (onFloor lv win ≠ [] ∨ onFloor lv win = [] ∧ ∃ t0 w0 b t, LastHeardOn lv (closedWindows ls c.cs ms) t0 w0 ∧
          ZoneAt c lv t0 (onFloor lv w0) b t s.post.indoorPos ∧ (Estim.Box.Covers lv.geometry.boundingBox s.post.indoorPos.toXY →
            ∃ j, journeyOf ls c ms = some j ∧ j.floor = lv ∧ j.motion.time = t0)) := by
      have hcur := hsee.current
      rw [List.map_append, List.map_singleton, votes_snoc] at hcur
      rcases see_used (votes (ds.map Level.id)) fl.id with h | ⟨hsome, h⟩
      · rw [h] at hcur
        exact ⟨fl, hflm, hcur, Or.inl hflh⟩
      · have hwne : closedWindows ls c.cs ms ≠ [] := by
          intro h0
          rw [h0] at hds
          cases hds
          cases hsome
        obtain ⟨lv, hlv, z2, t0, w0, b, t, z3, z4, z5⟩ := hz.place hwne
        refine ⟨lv, hlv, by rw [hcur, h, ← hcnt.current]; exact z2, ?_⟩
        by_cases ho : onFloor lv win = []
        · exact Or.inr ⟨ho, t0, w0, b, t, z3, z4, z5⟩
        · exact Or.inl ho
    obtain ⟨lv, hlv, hcur, hor⟩ := hused
    have hlvt : timedOutLevel c x = lv.id := by
      rw [fresh_level hc hp.noAction ht hf hst.sense, ← g1, hsee1, hcur]
    have hpend : ∀ h ∈ (windows ls c.cs (ms ++ [m])).pending, Radio.Admissible ls c.cs h.data := by
      rw [hpe]; intro h hm; cases hm
    have hinuse : FloorInUse ls (closedWindows ls c.cs ms ++ [(m.ts, win)]) lv := inUse_of hc.map hvoted hsee hlv hcur
    have hop : (windows ls c.cs (ms ++ [m])).opened = some m.ts := by
      rw [windows_snoc]
      obtain ⟨md, mts⟩ := m
      dsimp only at hd hclose ⊢
      subst hd
      rw [take_heard _ had]
      unfold Windows.hear
      dsimp only
      rw [if_pos hclose]
    have hlt : ∀ k, journeyOf ls c ms = some k → k.motion.time < m.ts := by
      intro k hk
      obtain ⟨-, o, o1, o2⟩ := hz.times k hk
      rw [o1] at hclose
      have := span_pos hp.toWindowed
      simp only [Option.getD_some] at hclose
      omega
    have hold : ∀ j, journeyOf ls c ms = some j → j.floor ∈ ls ∧ ∃ o, (windows ls c.cs (ms ++ [m])).opened = some o ∧ j.motion.time ≤ o :=
      fun j hj => ⟨(hz.times j hj).1, m.ts, hop, (hlt j hj).le⟩
    obtain ⟨sn1, sn2⟩ := floorFixes_snoc hc.map (closedWindows ls c.cs ms) (m.ts, win)
    rw [← hws] at sn1 sn2
    rcases hor with hon | ⟨hoff, t0, w0, b, t, z3, z4, z5⟩
    · obtain ⟨i, p, ph, ha⟩ := hlevel lv hlv hlvt
      obtain ⟨q, b, t, hq, hzone⟩ := handed_zone_on hc hp.toByZones hho lv hon s.indoorPos x.pre.currentTs
      have hi := ha.indoor
      rw [hq] at hi
      cases hi
      rw [h7] at hzone
      have hl := ha.located
      rw [hst.locate] at hl
      obtain ⟨k1, k2⟩ := plain_fused hp.toWindowed s.post x.pre.currentTs q x.outdoorPos .OK
      have k1' : (Post.fusePositions c.cs s.post x.pre.currentTs q x.outdoorPos .OK).2.indoorPos = q := by
        rw [k1, hzone.isEmpty]; rfl
      have hpr := ha.processed
      rw [k2, k1'] at hpr
      obtain ⟨q1, q2, q3⟩ := travels_step hp (hc.map.named lv hlv) (travels_fuse hz.travels _ _ _ _)
        (fun k hk e => hinj _ (hz.times k hk).1 _ hlv e) q (fun _ => ⟨hzone.levelId, hzone.provider⟩) _ _ hpr (by
          intro _ k hk _
          rw [hzone.ts]; exact (hlt k hk).le)
      rw [k1'] at q1 q2
      rw [h7, hzone.ts, sub_self] at q2 q3
      have es : s'.position = p.1 ∧ s'.post = p.2 ∧ l.status = .OK := by
        rw [hst.state]
        cases hl
        exact ⟨rfl, rfl, rfl⟩
      have hpos : s'.post.indoorPos = q := by rw [es.2.1]; exact q1
      have hlast := lastHeard_now (closedWindows ls c.cs ms) m.ts hon
      have hrp := reckoning_pos hp.toSmoothed
      obtain ⟨zf1, zf2⟩ := zone_fix hzone
      have hon1 : onward c.cs c.env.allowed (journeyOf ls c ms) lv q = advance c.cs c.env.allowed (journeyOf ls c ms) (lv, ⟨m.ts, q.toXY⟩) := by
        unfold onward
        rw [if_neg, hzone.ts]
        rintro ⟨k, e1, -, e3⟩
        rw [hzone.ts] at e3
        exact absurd e3 (hlt k e1).ne
      rw [hon1] at q2
      -- the new fix
      have hnew : Estim.Box.Covers lv.geometry.boundingBox q.toXY → ∃ j, journeyOf ls c (ms ++ [m]) = some j ∧ j.floor = lv ∧ j.motion.time = m.ts ∧
          Travels c.cs (some j) s'.post ∧ ShowsOn lv j q.deviationM s'.position := by
        intro hbx
        have e : journeyOf ls c (ms ++ [m]) = some (advance c.cs c.env.allowed (journeyOf ls c ms) (lv, ⟨m.ts, q.toXY⟩)) := by
          unfold journeyOf
          rw [sn1 (lv, ⟨m.ts, q.toXY⟩) (by rw [hws]; exact ⟨hinuse, _, _, rfl, zf1 hbx⟩), journey_snoc]
        obtain ⟨r1, r2, r3, r4, r5, r6⟩ := q2 ⟨hzone.isEmpty, hbx, hrp⟩
        obtain ⟨a1, a2⟩ := advance_parts c.cs c.env.allowed (journeyOf ls c ms) (lv, ⟨m.ts, q.toXY⟩)
        rw [es.1, es.2.1]
        exact ⟨_, e, a1, a2, r1, a1, r2, r3, r4, r5, r6⟩
      have hsame : ¬ Estim.Box.Covers lv.geometry.boundingBox q.toXY → journeyOf ls c (ms ++ [m]) = journeyOf ls c ms ∧
          Travels c.cs (journeyOf ls c ms) s'.post := by
        intro hbx
        have e : journeyOf ls c (ms ++ [m]) = journeyOf ls c ms := by
          unfold journeyOf
          rw [sn2]
          rintro ⟨⟨lv', tt, pp⟩, u1, bef, win', u2, u3⟩
          rw [hws] at u1 u2
          obtain ⟨rfl, -⟩ := C118_unique hc.map hinuse u1
          obtain ⟨-, e2⟩ := List.append_inj' u2 rfl
          simp only [List.cons.injEq, Prod.mk.injEq, and_true] at e2
          obtain ⟨-, rfl⟩ := e2
          exact zf2 hbx ⟨_, u3⟩
        rw [es.2.1]
        exact ⟨e, (q3 (fun h => hbx h.2.1)).2⟩
      refine ⟨⟨hb, hpend, ⟨ds ++ [fl], by rw [hws]; exact hvoted, hsee⟩, fun _ => ⟨lv, hlv, hcur, m.ts, win, b, t, ?_, ?_, ?_⟩, ?_, ?_⟩,
        fun _ _ => ⟨?_, ?_⟩⟩
      · rw [hws]; exact hlast
      · rw [hpos]; exact hzone
      · rw [hpos]
        intro hbx
        obtain ⟨j, e1, e2, e3, -⟩ := hnew hbx
        exact ⟨j, e1, e2, e3⟩
      · by_cases hbx : Estim.Box.Covers lv.geometry.boundingBox q.toXY
        · obtain ⟨j, e1, -, -, e4, -⟩ := hnew hbx
          rw [e1]; exact e4
        · rw [(hsame hbx).1]; exact (hsame hbx).2
      · by_cases hbx : Estim.Box.Covers lv.geometry.boundingBox q.toXY
        · obtain ⟨j, e1, e2, e3, -⟩ := hnew hbx
          intro j' hj'
          rw [e1, Option.some.injEq] at hj'
          rw [← hj', e2]
          exact ⟨hlv, m.ts, hop, e3.le⟩
        · rw [(hsame hbx).1]; exact hold
      · intro lv' hlv' hcur' t0' win' hl' hbox hage
        have : lv' = lv := hinj _ hlv' _ hlv (by rw [← hcur', hcur])
        subst this
        rw [hws] at hl'
        obtain ⟨rfl, rfl⟩ := lastHeard_unique hlast hl'
        rw [hpos] at hbox ⊢
        obtain ⟨j, e1, -, -, -, e5⟩ := hnew hbox
        exact ⟨j, e1, e5⟩
      · intro lv' hlv' hcur' t0' win' hl' hbad
        have : lv' = lv := hinj _ hlv' _ hlv (by rw [← hcur', hcur])
        subst this
        rw [hws] at hl'
        obtain ⟨rfl, rfl⟩ := lastHeard_unique hlast hl'
        rw [hpos] at hbad
        rw [es.1]
        have hbx : ¬ Estim.Box.Covers lv'.geometry.boundingBox q.toXY := fun h => hbad ⟨h, by rw [sub_self]; exact hrp⟩
        exact ⟨(q3 (fun h => hbx h.2.1)).1, fun _ => es.2.2, fun h => absurd ⟨hcloses, _, _, hcl, hon⟩ h⟩
    · have hsil : x.radio.filter (fun e => (lv.transmitter e.id).isSome) = [] := (handed_nil (handed_floor hho lv)).mpr hoff
      obtain ⟨q1, q2, q5, q3, q4⟩ := hquiet lv hlv hlvt (handed_silent hc hp.toByZones lv hsil _ _) _ _ _ _ z4 z5
      have hlast := lastHeard_still z3 m.ts hoff
      have hjo : journeyOf ls c (ms ++ [m]) = journeyOf ls c ms := by
        unfold journeyOf
        rw [sn2]
        rintro ⟨⟨lv', tt, pp⟩, u1, bef, win', u2, u3⟩
        rw [hws] at u1 u2
        obtain ⟨rfl, -⟩ := C118_unique hc.map hinuse u1
        obtain ⟨-, e2⟩ := List.append_inj' u2 rfl
        simp only [List.cons.injEq, Prod.mk.injEq, and_true] at e2
        obtain ⟨-, rfl⟩ := e2
        obtain ⟨_, _, ⟨⟨mm, hmm, -⟩, -⟩, -⟩ := u3
        dsimp only at hmm
        rw [hoff] at hmm
        cases hmm
      refine ⟨⟨hb, hpend, ⟨ds ++ [fl], by rw [hws]; exact hvoted, hsee⟩, fun _ => ⟨lv, hlv, hcur, t0, w0, b, t, ?_, ?_, ?_⟩, ?_, ?_⟩,
        fun _ _ => ⟨?_, ?_⟩⟩
      · rw [hws]; exact hlast
      · rw [q1]; exact z4
      · rw [q1, hjo]; exact z5
      · rw [hjo]; exact q5
      · rw [hjo]; exact hold
      · intro lv' hlv' hcur' t0' win' hl' hbox hage
        have : lv' = lv := hinj _ hlv' _ hlv (by rw [← hcur', hcur])
        subst this
        rw [hws] at hl'
        obtain ⟨rfl, rfl⟩ := lastHeard_unique hlast hl'
        rw [q1] at hbox ⊢
        rw [hjo]
        exact q3 ⟨hbox, hage⟩
      · intro lv' hlv' hcur' t0' win' hl' hbad
        have : lv' = lv := hinj _ hlv' _ hlv (by rw [← hcur', hcur])
        subst this
        rw [hws] at hl'
        obtain ⟨rfl, rfl⟩ := lastHeard_unique hlast hl'
        rw [q1] at hbad
        refine ⟨q4 hbad, ?_, fun _ => q2⟩
        rintro ⟨-, t1, w1, e1, e2⟩
        rw [hcl] at e1
        cases e1
        exact absurd hoff e2

theorem toured_runs {ls : List Level} {c : Cfg} (hc : Client ls c) (hp : SmoothZones c.cs) (g : Garbage) (ms : List Measurement)
    (hts : ∀ m ∈ ms, 0 < m.ts) {s : State} {outs : List (Output × DebugState)} (h : runs c (init c g) ms = .ok (s, outs)) :
    Toured ls c ms s := by
  induction ms using List.reverseRecOn generalizing s outs with
  | nil => cases h; exact toured_init ls c hp g
  | append_singleton ms m ih =>
    obtain ⟨s1, outs1, r, h1, h2, -⟩ := runs_snoc h
    have ht := traced_runs hc g ms h1
    obtain ⟨-, x, l, hst, -⟩ := traced_step hc ht h2
    exact (toured_step hc hp ht (ih (fun m hm => hts m (by simp [hm])) h1) (hts m (by simp)) hst).1

/-- **C124.** A client with any number of floors that locates by zones and smooths with the alpha-beta filter (as with the default
settings), after any history of measurements with positive times, gets a measurement while the last admitted signal is younger than
the no-signal threshold, and some window of signals was closed (by this or an earlier measurement).  Then there is exactly one floor in
use (the floors of the closed windows, voted on), and a transmitter of this floor was heard in some closed window; let `b` be the
strongest one in the last such window. If it lies in the bounding box of the floor and the window is younger than the dead reckoning
time, the answer is OK, names the floor in use and shows the place that the journey of all fixes so far has reached (moved into the box and
rounded down to centimetres), with the precision of that window. Otherwise the answer has no place; its status is NAVIGATION_ERROR if
this measurement closed that window and NO_SOLUTION if not. -/
theorem C124_answer {ls : List Level} {c : Cfg} (hc : Client ls c) (hp : SmoothZones c.cs) (g : Garbage)
    (batches : List (List Measurement)) {s : State} {outs : List (Output × DebugState)}
    (h : navigateAll c (init c g) batches = .ok (s, outs)) (m : Measurement)
    (hts : ∀ e ∈ taken batches ++ [m], 0 < e.ts) (hf : Fresh ls c.cs (taken batches) m)
    (hw : closedWindows ls c.cs (taken batches ++ [m]) ≠ []) :
    ∃ s' out dbg lv t0 win b t, navigate c s [m] = .ok (s', [(out, dbg)]) ∧
      FloorInUse ls (closedWindows ls c.cs (taken batches ++ [m])) lv ∧
      LastHeardOn lv (closedWindows ls c.cs (taken batches ++ [m])) t0 win ∧
      Strongest (onFloor lv win) b ∧ lv.transmitter b = some t ∧ dbg.indoorPosition = ⟨t.point.x, t.point.y⟩ ∧
      (Estim.Box.Covers lv.geometry.boundingBox ⟨t.point.x, t.point.y⟩ ∧ m.ts - t0 < ⌊1000 * c.cs.deadReckoningTime⌋ →
        out.status = .OK ∧ out.posLevel = lv.id ∧ out.provider = some .INDOOR ∧
        (∃ j, journey c.cs c.env.allowed (floorFixes ls (closedWindows ls c.cs (taken batches ++ [m]))) = some j ∧ j.floor = lv ∧
          (⟨out.posLatitude, out.posLongitude⟩ : Geo.GeoPoint) =
            Geo.localToGps (shown lv.geometry.boundingBox j.motion.place) lv.bindingPoint) ∧
        ∃ r, out.posR = some r ∧ ∀ A B a b', c.indoor = .zone A B → StdMap.find? A lv.id = some a →
          StdMap.find? B lv.id = some b' → b' ≠ 0 → 1 < r ∧ r = Real.exp ((a - meanRssi (onFloor lv win) b) / (2 * b')) + 1) ∧
      (¬ (Estim.Box.Covers lv.geometry.boundingBox ⟨t.point.x, t.point.y⟩ ∧ m.ts - t0 < ⌊1000 * c.cs.deadReckoningTime⌋) →
        Blank out ∧ (ClosesOn ls c.cs lv (taken batches) m → out.status = .NAVIGATION_ERROR) ∧
        (¬ ClosesOn ls c.cs lv (taken batches) m → out.status = .NO_SOLUTION)) := by
  have ht := history_traced hc h
  rw [navigateAll_eq] at h
  have hz := toured_runs hc hp g _ (fun e he => hts e (by simp [he])) h
  obtain ⟨s', out, dbg, x, l, h1, hst, hdbg⟩ := one_parts hc ht.inv m
  obtain ⟨hz', han⟩ := toured_step hc hp ht hz (hts m (by simp)) hst
  obtain ⟨lv, hlv, hcur, t0, win, b, t, hlast, hzone, -⟩ := hz'.place hw
  obtain ⟨ds, hds, hcnt⟩ := hz'.voted
  have han := han hw hf
  have hinuse := inUse_of hc.map hds hcnt hlv hcur
  have hxy : s'.post.indoorPos.toXY = ⟨t.point.x, t.point.y⟩ := by
    simp [Position.toXY, hzone.x, hzone.y]
  obtain ⟨hsh, -, herr⟩ := stepped_shows hc hst
  refine ⟨s', out, dbg, lv, t0, win, b, t, h1, hinuse, hlast, hzone.strongest, hzone.tx, ?_, ?_, ?_⟩
  · rw [hdbg]
    simp [debugState, hzone.x, hzone.y]
  · rintro ⟨hbox, hage⟩
    obtain ⟨j, hj, hs⟩ := han.inside lv hlv hcur t0 win hlast (by rw [hxy]; exact hbox) hage
    rcases hsh with ⟨he, -⟩ | ⟨he, hok, lv', hlv', hid, e1, e2, e3, e4, e5⟩
    · rw [hs.isEmpty] at he
      cases he
    have : lv' = lv := by
      apply List.inj_on_of_nodup_map hc.map.nodup hlv' hlv
      rw [hid, hs.level]
    subst this
    refine ⟨hok, ?_, ?_, ⟨j, hj, hs.floor, ?_⟩, s'.post.indoorPos.deviationM, ?_, hzone.formula⟩
    · rw [e1, hs.level]
    · rw [e5, hs.provider]
    · rw [e2, e3, hs.place]
    · rw [e4, hs.deviation]
  · intro hbad
    obtain ⟨hpos, hs1, hs2⟩ := han.outside lv hlv hcur t0 win hlast (by rw [hxy]; exact hbad)
    have hemp : s'.position.isEmpty = true := by rw [hpos]; rfl
    rcases hsh with ⟨-, -, hb⟩ | ⟨he, -⟩
    swap
    · rw [hemp] at he; cases he
    have hst' := herr hemp
    refine ⟨hb, fun h => ?_, fun h => ?_⟩
    · rw [hst', hs1 h]; rfl
    · rw [hst', hs2 h]; rfl

/-! ## The fixes and the journey -/

/-- **C124.** A new window adds a fix if the strongest transmitter of the floor then in use lies in the box of this floor. -/
theorem C124_new_fix {ls : List Level} (hm : GoodMap ls) {ws : List (Int × List RadioMeasurement)} {t : Int} {win : List RadioMeasurement} {lv : Level}
    (hu : FloorInUse ls (ws ++ [(t, win)]) lv) {p : XYPoint} (hp : FixAt lv (onFloor lv win) p) :
    floorFixes ls (ws ++ [(t, win)]) = floorFixes ls ws ++ [(lv, ⟨t, p⟩)] :=
  (floorFixes_snoc hm ws (t, win)).1 (lv, ⟨t, p⟩) ⟨hu, ws, win, rfl, hp⟩

/-- **C124.** Otherwise it adds none: no transmitter of the floor in use was heard, or the strongest one lies outside of the box. -/
theorem C124_no_fix {ls : List Level} (hm : GoodMap ls) {ws : List (Int × List RadioMeasurement)} {t : Int} {win : List RadioMeasurement} {lv : Level}
    (hu : FloorInUse ls (ws ++ [(t, win)]) lv) (hp : ¬ ∃ p, FixAt lv (onFloor lv win) p) :
    floorFixes ls (ws ++ [(t, win)]) = floorFixes ls ws := by
  refine (floorFixes_snoc hm ws (t, win)).2 ?_
  rintro ⟨⟨lv', t', p⟩, u1, bef, win', u2, u3⟩
  obtain ⟨rfl, -⟩ := C118_unique hm hu u1
  obtain ⟨-, e2⟩ := List.append_inj' u2 rfl
  simp only [List.cons.injEq, Prod.mk.injEq, and_true] at e2
  obtain ⟨-, rfl⟩ := e2
  exact hp ⟨_, u3⟩

theorem journey_some (cs : CommonSettings) (allowed : Level → ℝ → ℝ → Prop) (es : List (Level × Fix)) (a : Level × Fix) :
    ∃ j, journey cs allowed (es ++ [a]) = some j ∧ j.floor = a.1 ∧ j.motion.time = a.2.time :=
  ⟨_, journey_snoc cs allowed es a, advance_parts cs allowed _ a⟩

/-- **C124.** On another floor than the last fix the journey is at the new fix, at rest: nothing of the old floor is mixed in. -/
theorem C124_arrive (cs : CommonSettings) (allowed : Level → ℝ → ℝ → Prop) (es : List (Level × Fix)) (a e : Level × Fix) (h : a.1 ≠ e.1) :
    ∃ j, journey cs allowed (es ++ [a] ++ [e]) = some j ∧ j.floor = e.1 ∧ j.motion = Motion.rest e.2 := by
  obtain ⟨k, hk, hf, -⟩ := journey_some cs allowed es a
  refine ⟨_, journey_snoc cs allowed _ e, ?_⟩
  rw [hk]
  unfold advance
  dsimp only
  rw [if_pos (by rw [hf]; exact h)]
  exact ⟨rfl, rfl⟩

/-- **C124.** As long as all fixes are on one floor, the journey is the motion of C123. -/
theorem C124_one_floor (cs : CommonSettings) (allowed : Level → ℝ → ℝ → Prop) (lv : Level) (fs : List Fix) :
    (journey cs allowed (fs.map (fun f => (lv, f)))).map Journey.motion = track cs (allowed lv) fs := by
  match fs with
  | [] => rfl
  | [f] => rfl
  | a :: f :: fs =>
    have key : ∀ (fs : List Fix) (k : Motion),
        (fs.map (fun f => (lv, f))).foldl (fun j e => some (advance cs allowed j e)) (some ⟨lv, k, true⟩) =
          some ⟨lv, fs.foldl (Motion.follow cs (allowed lv)) k, true⟩ := by
      intro fs
      induction fs with
      | nil => intro k; rfl
      | cons f fs ih =>
        intro k
        rw [List.map_cons, List.foldl_cons, List.foldl_cons]
        have : advance cs allowed (some ⟨lv, k, true⟩) (lv, f) = ⟨lv, k.follow cs (allowed lv) f, true⟩ := by
          unfold advance
          simp
        rw [this]
        exact ih _
    have h2 : advance cs allowed (some (advance cs allowed none (lv, a))) (lv, f) = ⟨lv, Motion.rest f, true⟩ := by
      unfold advance
      simp
    unfold journey
    rw [List.map_cons, List.map_cons, List.foldl_cons, List.foldl_cons, h2, key]
    rfl

end Verif.Track
