import Verif.Floors.Lemmas

/-!
# Property theorems for C118: what a client with zones on several floors answers
-/

namespace Verif.Floors

open Verif.Levels Verif.Nav
open Verif.Knn (Result)

/-- What the state of the client holds after the measurements `ms`. -/
structure Zoned (ls : List Level) (c : Cfg) (ms : List Measurement) (s : State) : Prop where
  buffered : Buffered c.cs (windows ls c.cs ms) s.pre.buffer
  pending : ∀ h ∈ (windows ls c.cs ms).pending, Radio.Admissible ls c.cs h.data
  voted : ∃ ds, List.Forall₂ (fun w d => FloorOf ls w.2 d) (closedWindows ls c.cs ms) ds ∧
    Counted (votes (ds.map Level.id)) s.level.history
  place : closedWindows ls c.cs ms ≠ [] → ∃ lv ∈ ls, s.level.history.current = lv.id ∧
    ∃ t0 win b t, LastHeardOn lv (closedWindows ls c.cs ms) t0 win ∧ ZoneAt c lv t0 (onFloor lv win) b t s.post.indoorPos

theorem zoned_init (ls : List Level) (c : Cfg) (hp : PlainZones c.cs) (g : Garbage) : Zoned ls c [] (init c g) := by
  have hs := span_pos hp.toWindowed
  constructor
  · constructor
    · rfl
    · exact fun _ => ⟨rfl, rfl⟩
    · intro t h; cases h
    · exact hs
  · intro h hh; cases hh
  · exact ⟨[], List.Forall₂.nil, rfl, rfl, fun _ => rfl⟩
  · intro h; exact absurd rfl h

/-- What the client holds after a recent signal. -/
structure Answered (ls : List Level) (c : Cfg) (ms : List Measurement) (m : Measurement) (s' : State) (st : NavigationStatus) : Prop where
  inside : ∀ lv ∈ ls, s'.level.history.current = lv.id → ∀ t0 win, LastHeardOn lv (closedWindows ls c.cs (ms ++ [m])) t0 win →
    Estim.Box.Covers lv.geometry.boundingBox s'.post.indoorPos.toXY → m.ts - t0 < ⌊1000 * c.cs.deadReckoningTime⌋ →
    s'.position = { s'.post.indoorPos with
      ts := m.ts, x := downToCm s'.post.indoorPos.x, y := downToCm s'.post.indoorPos.y }
  outside : ∀ lv ∈ ls, s'.level.history.current = lv.id → ∀ t0 win, LastHeardOn lv (closedWindows ls c.cs (ms ++ [m])) t0 win →
    ¬ (Estim.Box.Covers lv.geometry.boundingBox s'.post.indoorPos.toXY ∧ m.ts - t0 < ⌊1000 * c.cs.deadReckoningTime⌋) →
    s'.position = Position.default ∧ (ClosesOn ls c.cs lv ms m → st = .OK) ∧ (¬ ClosesOn ls c.cs lv ms m → st = .NO_SOLUTION)

theorem zoned_step {ls : List Level} {c : Cfg} (hc : Client ls c) (hp : PlainZones c.cs) {g : Garbage} {ms : List Measurement} {s : State}
    (ht : Traced ls c g ms s) (hz : Zoned ls c ms s) {m : Measurement} (hts : 0 < m.ts) {s' : State} {out : Output} {x : Sensed}
    {l : Located} (hst : Stepped ls c s m s' out x l) :
    Zoned ls c (ms ++ [m]) s' ∧ (closedWindows ls c.cs (ms ++ [m]) ≠ [] → Fresh ls c.cs ms m → Answered ls c ms m s' l.status) := by
  obtain ⟨-, h1, h2, -, -, -, h7, ⟨d, h8, h9⟩, -⟩ := sense_parts hst.sense
  obtain ⟨f1, -, f3, -⟩ := locate_frame hst.locate
  have hna : 0 < c.noAction := by have := hp.noAction; rw [hc.parts.noAction]; omega
  have hto : timedOutLevel c x = "" ∨ timedOutLevel c x = x.levelId := by
    rw [timedOut_eq ht.inv hna hst.sense]
    split_ifs
    · exact Or.inl rfl
    · exact Or.inr rfl
  obtain ⟨hb, hcase⟩ := framed_radio hc hp.toWindowed.framed hz.buffered hts h1
  rw [← windows_snoc, ← h2, ← f1, ← hst.state] at hb
  rw [← windows_snoc] at hcase
  rw [hp.barometer] at h9
  unfold LevelEst.calculateLevel at h9
  simp only [Bool.false_eq_true, if_false, Prod.mk.injEq] at h9
  obtain ⟨g1, g2⟩ := h9
  have g2' : s'.level.history = (LevelEst.detectLevelUsingHistory s.level.history d).2 := by
    rw [hst.state, f3, ← g2]
  have hinj : ∀ a ∈ ls, ∀ b ∈ ls, a.id = b.id → a = b := by
    intro a ha b hb' hab
    exact List.inj_on_of_nodup_map hc.map.nodup ha hb' hab
  -- the branch for a level
  have hlevel : ∀ lv ∈ ls, timedOutLevel c x = lv.id → ∃ i p ph, AtLevel ls c s x lv i p ph := by
    intro lv hlv h
    obtain ⟨lv', i, p, ph, ha⟩ := locate_level hc ht.inv hst.sensed ⟨lv, hlv, h.symm⟩
    have : lv' = lv := hinj _ ha.mem _ hlv (by rw [← h]; exact ha.id)
    subst this
    exact ⟨i, p, ph, ha⟩
  -- a step in which the floor in use is not heard
  have hquiet : ∀ lv ∈ ls, timedOutLevel c x = lv.id → indoorPosition c s.indoorPos lv x.pre.currentTs x.radio =
        .ok (.NO_SOLUTION, Position.default, s.indoorPos) →
      s'.post.indoorPos = s.post.indoorPos ∧ l.status = .NO_SOLUTION ∧
        (s.post.indoorPos.isEmpty = false →
          (Estim.Box.Covers lv.geometry.boundingBox s.post.indoorPos.toXY ∧ m.ts - s.post.indoorPos.ts < ⌊1000 * c.cs.deadReckoningTime⌋ →
            s'.position = { s.post.indoorPos with ts := m.ts, x := downToCm s.post.indoorPos.x, y := downToCm s.post.indoorPos.y }) ∧
          (¬ (Estim.Box.Covers lv.geometry.boundingBox s.post.indoorPos.toXY ∧ m.ts - s.post.indoorPos.ts < ⌊1000 * c.cs.deadReckoningTime⌋) →
            s'.position = Position.default)) := by
    intro lv hlv h hind
    obtain ⟨i, p, ph, ha⟩ := hlevel lv hlv h
    have hi := ha.indoor
    rw [hind] at hi
    cases hi
    have hl := ha.located
    rw [hst.locate] at hl
    obtain ⟨k1, k2⟩ := plain_fused hp.toWindowed s.post x.pre.currentTs Position.default x.outdoorPos .NO_SOLUTION
    have k1' : (Post.fusePositions c.cs s.post x.pre.currentTs Position.default x.outdoorPos .NO_SOLUTION).2.indoorPos =
        s.post.indoorPos := k1
    obtain ⟨q1, q2, q3⟩ := framed_processed hp.toWindowed.framed hp.smoothing _ _ _ _ _ _ ha.processed
    rw [k2, k1'] at q3
    rw [k1'] at q1
    rw [h7] at q3
    have es : s'.position = p.1 ∧ s'.post = p.2 ∧ l.status = .NO_SOLUTION := by
      rw [hst.state]
      cases hl
      exact ⟨rfl, rfl, rfl⟩
    rw [es.1, es.2.1]
    exact ⟨q1, es.2.2, q3⟩
  rcases hcase with ⟨hr, hncl, hcl, hpe, hpn⟩ | ⟨hclose, dd, win, hd, had, hwin, hcl, hpe, hho, -⟩
  · -- nothing is handed out
    have hncl' : ¬ Closes ls c.cs ms m := hncl
    have hws : closedWindows ls c.cs (ms ++ [m]) = closedWindows ls c.cs ms := by
      rw [closedWindows_snoc, if_neg hncl']; simp
    rw [hr, detect_nothing hc] at h8
    cases h8
    have e0 : LevelEst.detectLevelUsingHistory s.level.history "" = (s.level.history.current, s.level.history) := by
      simp [LevelEst.detectLevelUsingHistory]
    rw [e0] at g1 g2'
    dsimp only at g1 g2'
    have hpend : ∀ h ∈ (windows ls c.cs (ms ++ [m])).pending, Radio.Admissible ls c.cs h.data := by
      by_cases hh : Heard ls c.cs m
      · rw [hpe hh]
        obtain ⟨dd, hd, ha⟩ := hh
        intro h hm
        rcases List.mem_append.mp hm with hm | hm
        · exact hz.pending h hm
        · rw [List.mem_singleton] at hm
          rw [hm, hd]
          exact ha
      · rw [hpn hh]; exact hz.pending
    have hnow : timedOutLevel c x = "" → s'.post = s.post := by
      intro h
      obtain ⟨-, a2, -⟩ := locate_nowhere hc hst.locate h
      rw [hst.state]
      exact a2
    have hat : ∀ lv ∈ ls, timedOutLevel c x = lv.id → _ := fun lv hlv h =>
      hquiet lv hlv h (by rw [hr]; exact handed_silent hc hp.toByZones lv rfl _ _)
    refine ⟨⟨hb, hpend, by rw [hws, g2']; exact hz.voted, ?_⟩, fun hne hf => ?_⟩
    · rw [hws]
      intro hne
      obtain ⟨lv, hlv, z2, t0, win, b, t, z3, z4⟩ := hz.place hne
      rw [g2']
      refine ⟨lv, hlv, z2, t0, win, b, t, z3, ?_⟩
      rcases hto with h | h
      · rw [hnow h]; exact z4
      · rw [← g1, z2] at h
        rw [(hat lv hlv h).1]; exact z4
    · have hfl := fresh_level hc hp.noAction ht hf hst.sense
      rw [hws] at hne
      obtain ⟨lv, hlv, z2, t0, win, b, t, z3, z4⟩ := hz.place hne
      have k1 : timedOutLevel c x = lv.id := by rw [hfl, ← g1]; exact z2
      obtain ⟨q1, q2, q3⟩ := hat lv hlv k1
      have q3 := q3 z4.isEmpty
      rw [z4.ts] at q3
      constructor
      · intro lv' hlv' hcur t0' win' hl hbox hage
        have : lv' = lv := hinj _ hlv' _ hlv (by rw [← hcur, g2', z2])
        subst this
        rw [hws] at hl
        obtain ⟨rfl, rfl⟩ := lastHeard_unique z3 hl
        rw [q1] at hbox ⊢
        exact q3.1 ⟨hbox, hage⟩
      · intro lv' hlv' hcur t0' win' hl hbad
        have : lv' = lv := hinj _ hlv' _ hlv (by rw [← hcur, g2', z2])
        subst this
        rw [hws] at hl
        obtain ⟨rfl, rfl⟩ := lastHeard_unique z3 hl
        rw [q1] at hbad
        exact ⟨q3.2 hbad, fun h => absurd h.1 hncl', fun _ => q2⟩
  · -- a window is closed
    have hheard : Heard ls c.cs m := ⟨dd, hd, had⟩
    have hcloses : Closes ls c.cs ms m := ⟨hheard, hclose⟩
    have hws : closedWindows ls c.cs (ms ++ [m]) = closedWindows ls c.cs ms ++ [(m.ts, win)] := by
      rw [closedWindows_snoc, if_pos hcloses, hcl]; rfl
    have hadm : ∀ h ∈ win, Radio.Admissible ls c.cs h.data := by
      intro h hm
      rw [hwin] at hm
      rcases List.mem_append.mp hm with hm | hm
      · exact hz.pending h hm
      · rw [List.mem_singleton] at hm
        rw [hm]; exact had
    have hne : win ≠ [] := by rw [hwin]; simp
    obtain ⟨fl, hfl, hdet⟩ := handed_detected hc hp.toByZones hho hne hadm
    rw [hdet] at h8
    cases h8
    have hflm : fl ∈ ls := by obtain ⟨p, q, e, -⟩ := hfl; rw [e]; simp
    have hflh : onFloor fl win ≠ [] := by obtain ⟨p, q, -, e, -⟩ := hfl; exact e
    obtain ⟨ds, hds, hcnt⟩ := hz.voted
    obtain ⟨hsee, hsee1⟩ := counted_see hcnt (hc.map.named fl hflm)
    rw [← g2'] at hsee hsee1
    rw [← votes_snoc, ← List.map_singleton, ← List.map_append] at hsee
    have hvoted : List.Forall₂ (fun w d => FloorOf ls w.2 d) (closedWindows ls c.cs ms ++ [(m.ts, win)]) (ds ++ [fl]) :=
      List.rel_append hds (List.Forall₂.cons hfl List.Forall₂.nil)
    have hf : Fresh ls c.cs ms m :=
      ⟨ms, m, [], rfl, hheard, by simp, by have := hp.noSignal; omega⟩
    -- the floor in use now, and whether it is heard
    have hused : ∃ lv ∈ ls, s'.level.history.current = lv.id ∧
        (onFloor lv win ≠ [] ∨ onFloor lv win = [] ∧ ∃ t0 w0 b t, LastHeardOn lv (closedWindows ls c.cs ms) t0 w0 ∧
          ZoneAt c lv t0 (onFloor lv w0) b t s.post.indoorPos) := by
      have hcur := hsee.current
      rw [List.map_append, List.map_singleton, votes_snoc] at hcur
      rcases see_used (votes (ds.map Level.id)) fl.id with h | ⟨hsome, h⟩
      · rw [h] at hcur
        exact ⟨fl, hflm, hcur, Or.inl hflh⟩
      · have hwne : closedWindows ls c.cs ms ≠ [] := by
          intro h0
          rw [h0] at hds
          cases hds
          cases hsome
        obtain ⟨lv, hlv, z2, t0, w0, b, t, z3, z4⟩ := hz.place hwne
        refine ⟨lv, hlv, by rw [hcur, h, ← hcnt.current]; exact z2, ?_⟩
        by_cases ho : onFloor lv win = []
        · exact Or.inr ⟨ho, t0, w0, b, t, z3, z4⟩
        · exact Or.inl ho
    obtain ⟨lv, hlv, hcur, hor⟩ := hused
    have hlvt : timedOutLevel c x = lv.id := by
      rw [fresh_level hc hp.noAction ht hf hst.sense, ← g1, hsee1, hcur]
    have hpend : ∀ h ∈ (windows ls c.cs (ms ++ [m])).pending, Radio.Admissible ls c.cs h.data := by
      rw [hpe]; intro h hm; cases hm
    rcases hor with hon | ⟨hoff, t0, w0, b, t, z3, z4⟩
    · obtain ⟨i, p, ph, ha⟩ := hlevel lv hlv hlvt
      obtain ⟨q, b, t, hq, hzone⟩ := handed_zone_on hc hp.toByZones hho lv hon s.indoorPos x.pre.currentTs
      have hi := ha.indoor
      rw [hq] at hi
      cases hi
      rw [h7] at hzone
      have hl := ha.located
      rw [hst.locate] at hl
      obtain ⟨k1, k2⟩ := plain_fused hp.toWindowed s.post x.pre.currentTs q x.outdoorPos .OK
      have k1' : (Post.fusePositions c.cs s.post x.pre.currentTs q x.outdoorPos .OK).2.indoorPos = q := by
        rw [k1, hzone.isEmpty]; rfl
      obtain ⟨q1, q2, q3⟩ := framed_processed hp.toWindowed.framed hp.smoothing _ _ _ _ _ _ ha.processed
      rw [k2, k1'] at q3
      rw [k1'] at q1
      rw [h7] at q3
      have q3 := q3 hzone.isEmpty
      rw [hzone.ts] at q3
      have es : s'.position = p.1 ∧ s'.post = p.2 ∧ l.status = .OK := by
        rw [hst.state]
        cases hl
        exact ⟨rfl, rfl, rfl⟩
      have hpos : s'.post.indoorPos = q := by rw [es.2.1]; exact q1
      have hlast := lastHeard_now (closedWindows ls c.cs ms) m.ts hon
      refine ⟨⟨hb, hpend, ⟨ds ++ [fl], by rw [hws]; exact hvoted, hsee⟩, fun _ => ⟨lv, hlv, hcur, m.ts, win, b, t, ?_, ?_⟩⟩,
        fun _ _ => ⟨?_, ?_⟩⟩
      · rw [hws]; exact hlast
      · rw [hpos]; exact hzone
      · intro lv' hlv' hcur' t0' win' hl' hbox hage
        have : lv' = lv := hinj _ hlv' _ hlv (by rw [← hcur', hcur])
        subst this
        rw [hws] at hl'
        obtain ⟨rfl, rfl⟩ := lastHeard_unique hlast hl'
        rw [hpos] at hbox ⊢
        rw [es.1]
        exact q3.1 ⟨hbox, hage⟩
      · intro lv' hlv' hcur' t0' win' hl' hbad
        have : lv' = lv := hinj _ hlv' _ hlv (by rw [← hcur', hcur])
        subst this
        rw [hws] at hl'
        obtain ⟨rfl, rfl⟩ := lastHeard_unique hlast hl'
        rw [hpos] at hbad
        rw [es.1]
        exact ⟨q3.2 hbad, fun _ => es.2.2, fun h => absurd ⟨hcloses, _, _, hcl, hon⟩ h⟩
    · have hsil : x.radio.filter (fun e => (lv.transmitter e.id).isSome) = [] := (handed_nil (handed_floor hho lv)).mpr hoff
      obtain ⟨q1, q2, q3⟩ := hquiet lv hlv hlvt (handed_silent hc hp.toByZones lv hsil _ _)
      have q3 := q3 z4.isEmpty
      rw [z4.ts] at q3
      have hlast := lastHeard_still z3 m.ts hoff
      refine ⟨⟨hb, hpend, ⟨ds ++ [fl], by rw [hws]; exact hvoted, hsee⟩, fun _ => ⟨lv, hlv, hcur, t0, w0, b, t, ?_, ?_⟩⟩,
        fun _ _ => ⟨?_, ?_⟩⟩
      · rw [hws]; exact hlast
      · rw [q1]; exact z4
      · intro lv' hlv' hcur' t0' win' hl' hbox hage
        have : lv' = lv := hinj _ hlv' _ hlv (by rw [← hcur', hcur])
        subst this
        rw [hws] at hl'
        obtain ⟨rfl, rfl⟩ := lastHeard_unique hlast hl'
        rw [q1] at hbox ⊢
        exact q3.1 ⟨hbox, hage⟩
      · intro lv' hlv' hcur' t0' win' hl' hbad
        have : lv' = lv := hinj _ hlv' _ hlv (by rw [← hcur', hcur])
        subst this
        rw [hws] at hl'
        obtain ⟨rfl, rfl⟩ := lastHeard_unique hlast hl'
        rw [q1] at hbad
        refine ⟨q3.2 hbad, ?_, fun _ => q2⟩
        rintro ⟨-, t1, w1, e1, e2⟩
        rw [hcl] at e1
        cases e1
        exact absurd hoff e2

theorem zoned_runs {ls : List Level} {c : Cfg} (hc : Client ls c) (hp : PlainZones c.cs) (g : Garbage) (ms : List Measurement)
    (hts : ∀ m ∈ ms, 0 < m.ts) {s : State} {outs : List (Output × DebugState)} (h : runs c (init c g) ms = .ok (s, outs)) :
    Zoned ls c ms s := by
  induction ms using List.reverseRecOn generalizing s outs with
  | nil => cases h; exact zoned_init ls c hp g
  | append_singleton ms m ih =>
    obtain ⟨s1, outs1, r, h1, h2, -⟩ := runs_snoc h
    have ht := traced_runs hc g ms h1
    obtain ⟨-, x, l, hst, -⟩ := traced_step hc ht h2
    exact (zoned_step hc hp ht (ih (fun m hm => hts m (by simp [hm])) h1) (hts m (by simp)) hst).1

/-- **C118.** A client with any number of floors and plain zone settings, after any history of measurements with positive
times, gets a measurement while the last admitted signal is younger than the no-signal threshold, and some window of signals
was closed (by this or an earlier measurement).  Then there is exactly one floor in use (the floors of the closed windows,
voted on).  A transmitter of this floor was heard in some closed window; let `b` be the strongest one in the last such window.
If its place lies in the bounding box of the floor and the window is younger than the dead reckoning time, the answer is OK,
names the floor in use and shows the place of `b` (rounded down to centimetres) with the precision of its mean strength.
Otherwise the answer has no place; its status is NAVIGATION_ERROR if this measurement closed that window and NO_SOLUTION
if not. -/
theorem C118_floors {ls : List Level} {c : Cfg} (hc : Client ls c) (hp : PlainZones c.cs) (g : Garbage)
    (batches : List (List Measurement)) {s : State} {outs : List (Output × DebugState)}
    (h : navigateAll c (init c g) batches = .ok (s, outs)) (m : Measurement)
    (hts : ∀ e ∈ taken batches ++ [m], 0 < e.ts) (hf : Fresh ls c.cs (taken batches) m)
    (hw : closedWindows ls c.cs (taken batches ++ [m]) ≠ []) :
    ∃ s' out dbg lv t0 win b t, navigate c s [m] = .ok (s', [(out, dbg)]) ∧
      FloorInUse ls (closedWindows ls c.cs (taken batches ++ [m])) lv ∧
      LastHeardOn lv (closedWindows ls c.cs (taken batches ++ [m])) t0 win ∧
      Strongest (onFloor lv win) b ∧ lv.transmitter b = some t ∧ dbg.indoorPosition = ⟨t.point.x, t.point.y⟩ ∧
      (Estim.Box.Covers lv.geometry.boundingBox ⟨t.point.x, t.point.y⟩ ∧ m.ts - t0 < ⌊1000 * c.cs.deadReckoningTime⌋ →
        out.status = .OK ∧ out.posLevel = lv.id ∧ out.provider = some .INDOOR ∧
        (⟨out.posLatitude, out.posLongitude⟩ : Geo.GeoPoint) =
          Geo.localToGps ⟨downToCm t.point.x, downToCm t.point.y⟩ lv.bindingPoint ∧
        ∃ r, out.posR = some r ∧ ∀ A B a b', c.indoor = .zone A B → StdMap.find? A lv.id = some a →
          StdMap.find? B lv.id = some b' → b' ≠ 0 → 1 < r ∧ r = Real.exp ((a - meanRssi (onFloor lv win) b) / (2 * b')) + 1) ∧
      (¬ (Estim.Box.Covers lv.geometry.boundingBox ⟨t.point.x, t.point.y⟩ ∧ m.ts - t0 < ⌊1000 * c.cs.deadReckoningTime⌋) →
        Blank out ∧ (ClosesOn ls c.cs lv (taken batches) m → out.status = .NAVIGATION_ERROR) ∧
        (¬ ClosesOn ls c.cs lv (taken batches) m → out.status = .NO_SOLUTION)) := by
  have ht := history_traced hc h
  rw [navigateAll_eq] at h
  have hz := zoned_runs hc hp g _ (fun e he => hts e (by simp [he])) h
  obtain ⟨s', out, dbg, x, l, h1, hst, hdbg⟩ := one_parts hc ht.inv m
  obtain ⟨hz', han⟩ := zoned_step hc hp ht hz (hts m (by simp)) hst
  obtain ⟨lv, hlv, hcur, t0, win, b, t, hlast, hzone⟩ := hz'.place hw
  obtain ⟨ds, hds, hcnt⟩ := hz'.voted
  have han := han hw hf
  have hinuse : FloorInUse ls (closedWindows ls c.cs (taken batches ++ [m])) lv := by
    refine ⟨hlv, ds, hds, ?_⟩
    have := hcnt.current
    rw [hcur] at this
    cases hu : (votes (ds.map Level.id)).used with
    | none =>
      rw [hu] at this
      exact absurd this (hc.map.named lv hlv)
    | some u =>
      rw [hu] at this
      rw [this]; rfl
  have hxy : s'.post.indoorPos.toXY = ⟨t.point.x, t.point.y⟩ := by
    simp [Position.toXY, hzone.x, hzone.y]
  obtain ⟨hsh, -, herr⟩ := stepped_shows hc hst
  refine ⟨s', out, dbg, lv, t0, win, b, t, h1, hinuse, hlast, hzone.strongest, hzone.tx, ?_, ?_, ?_⟩
  · rw [hdbg]
    simp [debugState, hzone.x, hzone.y]
  · rintro ⟨hbox, hage⟩
    have hpos := han.inside lv hlv hcur t0 win hlast (by rw [hxy]; exact hbox) hage
    rcases hsh with ⟨he, -⟩ | ⟨he, hok, lv', hlv', hid, e1, e2, e3, e4, e5⟩
    · rw [hpos] at he
      have := hzone.isEmpty
      dsimp only at he
      rw [this] at he
      cases he
    have : lv' = lv := by
      apply List.inj_on_of_nodup_map hc.map.nodup hlv' hlv
      rw [hid, hpos]
      exact hzone.levelId
    subst this
    refine ⟨hok, ?_, ?_, ?_, s'.post.indoorPos.deviationM, ?_, hzone.formula⟩
    · rw [e1, hpos]; exact hzone.levelId
    · rw [e5, hpos, Option.some.injEq]; exact hzone.provider
    · rw [e2, e3, hpos]
      simp only [Position.toXY, hzone.x, hzone.y]
    · rw [e4, hpos]
  · intro hbad
    obtain ⟨hpos, hs1, hs2⟩ := han.outside lv hlv hcur t0 win hlast (by rw [hxy]; exact hbad)
    have hemp : s'.position.isEmpty = true := by rw [hpos]; rfl
    rcases hsh with ⟨-, -, hb⟩ | ⟨he, -⟩
    swap
    · rw [hemp] at he; cases he
    have hst' := herr hemp
    refine ⟨hb, fun h => ?_, fun h => ?_⟩
    · rw [hst', hs1 h]; rfl
    · rw [hst', hs2 h]; rfl

/-! ## The floor in use -/

theorem see_count (v : Votes) (d f : String) : (v.see d).count f ≤ v.count f + (if f = d then 1 else 0) ∧
    (f = d → min 4 (v.count d + 1) ≤ (v.see d).count f) := by
  by_cases h : f = d
  · subst h
    rw [if_pos rfl]
    unfold Votes.see
    by_cases h1 : 4 ≤ v.count f
    · rw [if_pos h1]
      exact ⟨by simp only [if_true]; omega, fun _ => by simp⟩
    · rw [if_neg h1]
      exact ⟨by simp, fun _ => by simp⟩
  · refine ⟨?_, fun e => absurd e h⟩
    unfold Votes.see
    split_ifs <;> simp only [if_neg h] <;> omega

theorem votes_count (ds : List String) (f : String) : (votes ds).count f ≤ ds.count f := by
  induction ds using List.reverseRecOn with
  | nil => simp [votes]
  | append_singleton ds d ih =>
    rw [votes_snoc, List.count_append, List.count_singleton]
    have := (see_count (votes ds) d f).1
    have e : (if (d == f) = true then 1 else 0) = (if f = d then 1 else 0 : ℕ) := by
      by_cases h : f = d
      · simp [h]
      · simp [h, Ne.symm h]
    rw [e]
    omega

theorem votes_five (ds : List String) (d : String) : (votes (ds ++ [d, d, d, d, d])).used = some d := by
  have e : votes (ds ++ [d, d, d, d, d]) = (((((votes ds).see d).see d).see d).see d).see d := by
    unfold votes; rw [List.foldl_append]; rfl
  rw [e]
  have h1 := (see_count (votes ds) d d).2 rfl
  have h2 := (see_count ((votes ds).see d) d d).2 rfl
  have h3 := (see_count (((votes ds).see d).see d) d d).2 rfl
  have h4 := (see_count ((((votes ds).see d).see d).see d) d d).2 rfl
  generalize ((((votes ds).see d).see d).see d).see d = v at *
  unfold Votes.see
  rw [if_pos (by omega)]

theorem forall₂_snoc {α β : Type} {R : α → β → Prop} {l : List α} {a : α} {l' : List β} (h : List.Forall₂ R (l ++ [a]) l') :
    ∃ k b, l' = k ++ [b] ∧ List.Forall₂ R l k ∧ R a b := by
  induction l generalizing l' with
  | nil =>
    cases h with
    | cons h1 h2 => cases h2; exact ⟨[], _, rfl, List.Forall₂.nil, h1⟩
  | cons x l ih =>
    cases h with
    | cons h1 h2 =>
      obtain ⟨k, b, rfl, h3, h4⟩ := ih h2
      exact ⟨_ :: k, b, rfl, List.Forall₂.cons h1 h3, h4⟩

/-- **C118.** There is at most one floor in use, the strongest transmitter of the floor in its last window is unique, and so
is that window: the answer of `C118_floors` is determined. -/
theorem C118_unique {ls : List Level} (hm : GoodMap ls) {ws : List (Int × List RadioMeasurement)} {a b : Level}
    (ha : FloorInUse ls ws a) (hb : FloorInUse ls ws b) :
    a = b ∧ ∀ t0 w0 t1 w1 p q, LastHeardOn a ws t0 w0 → LastHeardOn b ws t1 w1 → Strongest (onFloor a w0) p →
      Strongest (onFloor b w1) q → t0 = t1 ∧ w0 = w1 ∧ p = q := by
  obtain ⟨ha, ds, h1, h2⟩ := ha
  obtain ⟨hb, ds', h1', h2'⟩ := hb
  have hab : a = b := by
    have := floors_unique h1 h1'
    subst this
    rw [h2, Option.some.injEq] at h2'
    exact List.inj_on_of_nodup_map hm.nodup ha hb h2'
  subst hab
  refine ⟨rfl, ?_⟩
  intro t0 w0 t1 w1 p q k0 k1 kp kq
  obtain ⟨rfl, rfl⟩ := lastHeard_unique k0 k1
  exact ⟨rfl, rfl, strongest_unique kp kq⟩

/-- **C118.** Five windows of the same floor in a row make it the floor in use, whatever was heard before. -/
theorem C118_five {ls : List Level} (hm : GoodMap ls) {ws : List (Int × List RadioMeasurement)} {w1 w2 w3 w4 w5 : Int × List RadioMeasurement}
    {a lv : Level} (hw : ∀ w ∈ [w1, w2, w3, w4, w5], FloorOf ls w.2 a) (h : FloorInUse ls (ws ++ [w1, w2, w3, w4, w5]) lv) : lv = a := by
  obtain ⟨hlv, ds, h1, h2⟩ := h
  have e : ws ++ [w1, w2, w3, w4, w5] = ((((ws ++ [w1]) ++ [w2]) ++ [w3]) ++ [w4]) ++ [w5] := by simp
  rw [e] at h1
  obtain ⟨k5, b5, rfl, h1, r5⟩ := forall₂_snoc h1
  obtain ⟨k4, b4, rfl, h1, r4⟩ := forall₂_snoc h1
  obtain ⟨k3, b3, rfl, h1, r3⟩ := forall₂_snoc h1
  obtain ⟨k2, b2, rfl, h1, r2⟩ := forall₂_snoc h1
  obtain ⟨k1, b1, rfl, h1, r1⟩ := forall₂_snoc h1
  have q1 := floorOf_unique (hw w1 (by simp)) r1
  have q2 := floorOf_unique (hw w2 (by simp)) r2
  have q3 := floorOf_unique (hw w3 (by simp)) r3
  have q4 := floorOf_unique (hw w4 (by simp)) r4
  have q5 := floorOf_unique (hw w5 (by simp)) r5
  subst q1 q2 q3 q4 q5
  have ha : a ∈ ls := by obtain ⟨p, q, e, -⟩ := r1; rw [e]; simp
  have := votes_five (k1.map Level.id) a.id
  simp only [List.append_assoc, List.map_append, List.map_cons, List.map_nil, List.cons_append, List.nil_append] at h2
  rw [h2, Option.some.injEq] at this
  exact List.inj_on_of_nodup_map hm.nodup hlv ha this

/-- **C118.** When a window changes the floor in use, it is a window of the new floor, and at least four earlier windows
were too: a floor heard in passing is not reported. -/
theorem C118_change {ls : List Level} {ws : List (Int × List RadioMeasurement)} {w : Int × List RadioMeasurement} {a b : Level}
    (hm : GoodMap ls) (ha : FloorInUse ls ws a) (hb : FloorInUse ls (ws ++ [w]) b) (hab : a ≠ b) :
    ∃ ds, List.Forall₂ (fun w d => FloorOf ls w.2 d) (ws ++ [w]) (ds ++ [b]) ∧ 4 ≤ (ds.map Level.id).count b.id := by
  obtain ⟨ha, ds, h1, h2⟩ := ha
  obtain ⟨hb, ds', h1', h2'⟩ := hb
  obtain ⟨k, d, rfl, h3, h4⟩ := forall₂_snoc h1'
  have := floors_unique h1 h3
  subst this
  rw [List.map_append, List.map_singleton, votes_snoc] at h2'
  have hcnt := votes_count (ds.map Level.id) d.id
  unfold Votes.see at h2'
  split_ifs at h2' with h5
  · simp only [Option.some.injEq] at h2'
    refine ⟨ds, ?_, by rw [← h2']; omega⟩
    have hd : d ∈ ls := by obtain ⟨p, q, e, -⟩ := h4; rw [e]; simp
    rw [← List.inj_on_of_nodup_map hm.nodup hd hb h2']
    exact h1'
  · simp only [h2, Option.getD_some, Option.some.injEq] at h2'
    exact absurd (List.inj_on_of_nodup_map hm.nodup ha hb h2') hab

/-! ## A building with two floors -/

/-- A beacon on the upper floor. -/
noncomputable def upTx : Transmitter XYZPoint := ⟨"ty", ⟨0, 0, 0⟩, ⟨-59, 10, 0⟩, .BEACON⟩

/-- The upper floor. -/
noncomputable def upLevel : Level := bareLevel "B" [upTx]

/-- A client with plain settings. -/
noncomputable def twoCfg : Cfg where
  env := exEnv
  cs := plainSettings
  levels := collect [exLevel, upLevel]
  noSignal := 35000
  noAction := 20000
  detector := .transmitters false
  indoor := .zone [("A", -59), ("B", -59)] [("A", 10), ("B", 10)]
  pre := Radio.mkCfg (collect [exLevel, upLevel]) plainSettings
  fusion := Fusion.fusionConfig plainSettings

theorem twoClient : Client [exLevel, upLevel] twoCfg where
  map := by
    refine ⟨by simp [exLevel, upLevel, bareLevel, Level.addTransmitters], ?_, ?_, ?_⟩ <;> intro l hl <;>
      simp only [List.mem_cons, List.not_mem_nil, or_false] at hl <;> rcases hl with rfl | rfl
    · simp [exLevel, bareLevel, Level.addTransmitters]
    · simp [upLevel, bareLevel, Level.addTransmitters]
    · rfl
    · rfl
    · exact ⟨[], rfl⟩
    · exact ⟨[], rfl⟩
  settings := ⟨fun h => (by cases h), fun h => (by cases h)⟩
  sort := sortsBy_insertionSort _
  radioSorts := Radio.insertionSorts_lawful
  built := by
    refine ⟨[("A", ⟨-59, 10⟩), ("B", ⟨-59, 10⟩)], ?_⟩
    have hz : Estim.zoneParams [("A", ⟨-59, 10⟩), ("B", ⟨-59, 10⟩)] (collect [exLevel, upLevel]) =
        some ([("A", -59), ("B", -59)], [("A", 10), ("B", 10)]) := by
      have hBA : ¬ ("B" < "A") := not_lt.mpr (le_of_lt (String.lt_iff_toList_lt.mpr (by decide)))
      simp [Estim.zoneParams, collect_levels, exLevel, upLevel, bareLevel, Level.addTransmitters, List.foldlM, StdMap.find?, StdMap.set,
        StdMap.insertSorted]
      simpa using hBA
    unfold mkCfg createPositionEstimator
    rw [if_neg (by simp [twoCfg, plainSettings]), hz]
    simp [twoCfg, plainSettings, createLevelEstimator]

/-- A signal of a beacon. -/
noncomputable def sig (id : String) (t : Int) : Measurement := ⟨.radio ⟨.BEACON, id, -70, 0, 0, 0⟩, t⟩

theorem low_tx (id : String) : exLevel.transmitter id = if id = "tx" then some exTx else none := by
  simp [exLevel, bareLevel, Level.addTransmitters, Level.transmitter, exTx, StdMap.insert, StdMap.insertSorted, StdMap.find?]
  congr 1
  exact propext eq_comm

theorem up_tx (id : String) : upLevel.transmitter id = if id = "ty" then some upTx else none := by
  simp [upLevel, bareLevel, Level.addTransmitters, Level.transmitter, upTx, StdMap.insert, StdMap.insertSorted, StdMap.find?]
  congr 1
  exact propext eq_comm

theorem sig_admitted {id : String} (h : id = "tx" ∨ id = "ty") :
    Radio.Admissible [exLevel, upLevel] twoCfg.cs ⟨.BEACON, id, -70, 0, 0, 0⟩ := by
  refine ⟨?_, ?_, ?_, ?_⟩
  · simp [Radio.TypeEnabled, twoCfg, plainSettings]
  · intro _; simp [twoCfg, plainSettings]; norm_num
  · intro h; exact absurd rfl h
  · right
    rcases h with rfl | rfl
    · refine ⟨exTx, ⟨exLevel, rfl, ?_, rfl⟩, ?_⟩
      · simp [exLevel, bareLevel, Level.addTransmitters, exTx, StdMap.insert, StdMap.insertSorted]
      · simp [exTx, twoCfg, plainSettings]
    · refine ⟨upTx, ⟨upLevel, ?_, ?_, rfl⟩, ?_⟩
      · simp [contains_iff, low_tx, up_tx]
      · simp [upLevel, bareLevel, Level.addTransmitters, upTx, StdMap.insert, StdMap.insertSorted]
      · simp [upTx, twoCfg, plainSettings]

/-- The signal as it is buffered. -/
noncomputable def heardSig (id : String) (t : Int) : RadioMeasurement := ⟨⟨.BEACON, id, -70, 0, 0, 0⟩, t⟩

theorem two_span : spanOf twoCfg.cs = 1000 := by simp [spanOf, twoCfg, plainSettings]

/-- The windows of a history. -/
def Cut (ms : List Measurement) (w : Windows) (ws : List (Int × List RadioMeasurement)) : Prop :=
  windows [exLevel, upLevel] twoCfg.cs ms = w ∧ closedWindows [exLevel, upLevel] twoCfg.cs ms = ws

theorem cut_first {id : String} (h : id = "tx" ∨ id = "ty") (t : Int) : Cut [sig id t] ⟨some t, [heardSig id t], none⟩ [] := by
  have hw : windows [exLevel, upLevel] twoCfg.cs [sig id t] = ⟨some t, [heardSig id t], none⟩ := by
    rw [show [sig id t] = [] ++ [sig id t] from rfl, windows_snoc]
    unfold sig
    rw [take_heard _ (sig_admitted h), two_span]
    simp [Windows.hear, windows, heardSig]
  refine ⟨hw, ?_⟩
  rw [show [sig id t] = [] ++ [sig id t] from rfl, closedWindows_snoc, if_neg, closedWindows_nil]
  · rfl
  · rintro ⟨-, hcl⟩
    rw [two_span] at hcl
    simp [windows] at hcl

theorem cut_next {ms : List Measurement} {t0 : Int} {pend : List RadioMeasurement} {cl : Option (Int × List RadioMeasurement)}
    {ws : List (Int × List RadioMeasurement)} (hc : Cut ms ⟨some t0, pend, cl⟩ ws) {id : String} (h : id = "tx" ∨ id = "ty") {t : Int}
    (ht : t0 + 1000 ≤ t) : Cut (ms ++ [sig id t]) ⟨some t, [], some (t, pend ++ [heardSig id t])⟩ (ws ++ [(t, pend ++ [heardSig id t])]) := by
  have hw : windows [exLevel, upLevel] twoCfg.cs (ms ++ [sig id t]) = ⟨some t, [], some (t, pend ++ [heardSig id t])⟩ := by
    rw [windows_snoc, hc.1]
    unfold sig
    rw [take_heard _ (sig_admitted h), two_span]
    unfold Windows.hear
    rw [if_pos (by simp only [Option.getD_some]; omega)]
    rfl
  refine ⟨hw, ?_⟩
  rw [closedWindows_snoc, if_pos, hw, hc.2]
  · rfl
  · refine ⟨⟨_, rfl, sig_admitted h⟩, ?_⟩
    rw [two_span, hc.1]
    simp only [Option.getD_some, sig]
    omega

theorem floor_low {win : List RadioMeasurement} {d : Level} (hw : ∀ m ∈ win, m.data.id = "tx") (h : FloorOf [exLevel, upLevel] win d) :
    d = exLevel := by
  obtain ⟨p, q, e, hne, -⟩ := h
  have hd : d ∈ [exLevel, upLevel] := by rw [e]; simp
  simp only [List.mem_cons, List.not_mem_nil, or_false] at hd
  rcases hd with rfl | rfl
  · rfl
  · exfalso
    apply hne
    unfold onFloor
    rw [List.filter_eq_nil_iff]
    intro m hm
    rw [hw m hm, up_tx]; simp

theorem floor_up {win : List RadioMeasurement} {d : Level} (hw : ∀ m ∈ win, m.data.id = "ty") (h : FloorOf [exLevel, upLevel] win d) :
    d = upLevel := by
  obtain ⟨p, q, e, hne, -⟩ := h
  have hd : d ∈ [exLevel, upLevel] := by rw [e]; simp
  simp only [List.mem_cons, List.not_mem_nil, or_false] at hd
  rcases hd with rfl | rfl
  · exfalso
    apply hne
    unfold onFloor
    rw [List.filter_eq_nil_iff]
    intro m hm
    rw [hw m hm, low_tx]; simp
  · rfl

/-- The history: two signals of the lower floor, then signals of the upper floor every two seconds. -/
noncomputable def climb (n : ℕ) : List Measurement :=
  [sig "tx" 1000, sig "tx" 3000] ++ (List.range n).map (fun k => sig "ty" (5000 + 2000 * k))

/-- Its windows. -/
noncomputable def climbed (n : ℕ) : List (Int × List RadioMeasurement) :=
  (3000, [heardSig "tx" 1000, heardSig "tx" 3000]) :: (List.range n).map (fun k : ℕ => (5000 + 2000 * (k : Int), [heardSig "ty" (5000 + 2000 * k)]))

theorem climb_succ (n : ℕ) : climb (n + 1) = climb n ++ [sig "ty" (5000 + 2000 * n)] := by
  simp [climb, List.range_succ]

theorem climb_cut (n : ℕ) : ∃ cl, Cut (climb n) ⟨some (3000 + 2000 * n), [], cl⟩ (climbed n) := by
  induction n with
  | zero =>
    have h1 := cut_next (cut_first (.inl rfl) 1000) (.inl rfl) (t := 3000) (by norm_num)
    exact ⟨_, by simpa [climb, climbed] using h1⟩
  | succ n ih =>
    obtain ⟨cl, ih⟩ := ih
    have h1 := cut_next ih (.inr rfl) (t := 5000 + 2000 * n) (by omega)
    refine ⟨some (5000 + 2000 * n, [heardSig "ty" (5000 + 2000 * n)]), ?_⟩
    rw [climb_succ]
    have e1 : (3000 : Int) + 2000 * ((n + 1 : ℕ) : Int) = 5000 + 2000 * n := by push_cast; ring
    have e2 : climbed (n + 1) = climbed n ++ [(5000 + 2000 * (n : Int), [heardSig "ty" (5000 + 2000 * n)])] := by
      simp [climbed, List.range_succ]
    rw [e1, e2]
    exact h1

theorem climb_times (n : ℕ) : Ordered (climb n) ∧ ∀ e ∈ climb n, 0 < e.ts ∧ e.ts ≤ 3000 + 2000 * n := by
  induction n with
  | zero => simp [climb, Ordered, sig]
  | succ n ih =>
    rw [climb_succ]
    constructor
    · unfold Ordered
      rw [List.pairwise_append]
      refine ⟨ih.1, by simp, ?_⟩
      intro a ha b hb
      rw [List.mem_singleton] at hb
      rw [hb]
      have := (ih.2 a ha).2
      simp only [sig]
      omega
    · intro e he
      rcases List.mem_append.mp he with he | he
      · have := ih.2 e he
        push_cast
        omega
      · rw [List.mem_singleton] at he
        rw [he]
        simp only [sig]
        push_cast
        omega

theorem climb_floors (n : ℕ) {ds : List Level} (h : List.Forall₂ (fun w d => FloorOf [exLevel, upLevel] w.2 d) (climbed n) ds) :
    ds.map Level.id = "A" :: List.replicate n "B" := by
  have key : ∀ (l : List ℕ) (ks : List Level), List.Forall₂ (fun w d => FloorOf [exLevel, upLevel] w.2 d)
      (l.map (fun k : ℕ => ((5000 + 2000 * (k : Int) : Int), [heardSig "ty" (5000 + 2000 * k)]))) ks →
      ks.map Level.id = List.replicate l.length "B" := by
    intro l
    induction l with
    | nil => intro ks h; cases h; rfl
    | cons a l ih =>
      intro ks h
      cases h with
      | cons h1 h2 =>
        rw [List.map_cons, ih _ h2, floor_up (by intro m hm; rw [List.mem_singleton] at hm; rw [hm]; rfl) h1]
        rfl
  unfold climbed at h
  cases h with
  | cons h1 h2 =>
    rw [List.map_cons, key _ _ h2, List.length_range, floor_low (by
      intro m hm
      simp only [List.mem_cons, List.not_mem_nil, or_false] at hm
      rcases hm with rfl | rfl <;> rfl) h1]
    rfl

theorem climb_votes (n : ℕ) : (votes ("A" :: List.replicate n "B")).used = some (if n ≤ 4 then "A" else "B") := by
  by_cases h : n ≤ 4
  · rw [if_pos h]
    interval_cases n <;> rfl
  · rw [if_neg h]
    have : List.replicate n "B" = List.replicate (n - 5) "B" ++ ["B", "B", "B", "B", "B"] := by
      rw [show ["B", "B", "B", "B", "B"] = List.replicate 5 "B" from rfl, ← List.replicate_add]
      congr 1
      omega
    rw [this, ← List.cons_append]
    exact votes_five _ _

/-- **C118** is about possible histories: two signals of the beacon on floor A, and then, every two seconds, `n + 1` signals of
the beacon on floor B, each of which closes a window.  The answer to the last one names floor A for the first two, is
NO_SOLUTION for the next two (the signals of floor A are too old), and names floor B from the fifth on. -/
theorem C118_example (g : Garbage) (n : ℕ) :
    ∃ s outs s' out dbg, navigateAll twoCfg (init twoCfg g) [climb n] = .ok (s, outs) ∧
      navigate twoCfg s [sig "ty" (5000 + 2000 * n)] = .ok (s', [(out, dbg)]) ∧
      (n < 2 → out.status = .OK ∧ out.posLevel = "A") ∧ (2 ≤ n → n < 4 → out.status = .NO_SOLUTION) ∧
      (4 ≤ n → out.status = .OK ∧ out.posLevel = "B") := by
  obtain ⟨s, outs, h1, -⟩ := C79_total twoClient g [climb n]
  have htk : taken [climb n] = climb n := by simp [taken, records_ordered _ (climb_times n).1]
  have hsnoc : taken [climb n] ++ [sig "ty" (5000 + 2000 * n)] = climb (n + 1) := by rw [htk, climb_succ]
  obtain ⟨cl, hcut⟩ := climb_cut (n + 1)
  have hdead : ⌊1000 * twoCfg.cs.deadReckoningTime⌋ = 5000 := by
    have : (1000 : ℝ) * twoCfg.cs.deadReckoningTime = ((5000 : Int) : ℝ) := by
      simp [twoCfg, plainSettings]; norm_num
    rw [this, Int.floor_intCast]
  obtain ⟨s', out, dbg, lv, t0, win, b, t, h2, ⟨h3, ds, h4, h5⟩, h6, h7, h8, -, h9, h10⟩ := C118_floors twoClient plain_settings g [climb n] h1
    (sig "ty" (5000 + 2000 * n))
    (by rw [hsnoc]; exact fun e he => ((climb_times (n + 1)).2 e he).1)
    ⟨climb n, sig "ty" (5000 + 2000 * n), [], by rw [htk], ⟨_, rfl, sig_admitted (.inr rfl)⟩, by simp,
      (by change 5000 + 2000 * (n : Int) < 5000 + 2000 * (n : Int) + 1000 * 35; omega)⟩
    (by rw [hsnoc, hcut.2]; simp [climbed])
  rw [hsnoc, hcut.2] at h4 h6
  rw [climb_floors (n + 1) h4, climb_votes, Option.some.injEq] at h5
  have hbox : ∀ p, lv.transmitter b = some p → Estim.Box.Covers lv.geometry.boundingBox ⟨p.point.x, p.point.y⟩ := by
    simp only [List.mem_cons, List.not_mem_nil, or_false] at h3
    intro p hp
    rcases h3 with rfl | rfl
    · rw [low_tx] at hp
      split_ifs at hp
      cases hp
      simp [Estim.Box.Covers, exLevel, bareLevel, Level.addTransmitters, exTx]
    · rw [up_tx] at hp
      split_ifs at hp
      cases hp
      simp [Estim.Box.Covers, upLevel, bareLevel, Level.addTransmitters, upTx]
  have hts : (sig "ty" (5000 + 2000 * n)).ts = 5000 + 2000 * n := rfl
  rw [hts, hdead] at h9 h10
  have hbox := hbox t h8
  simp only [List.mem_cons, List.not_mem_nil, or_false] at h3
  -- the last window of floor A, of floor B
  have hlow : lv = exLevel → t0 = 3000 := by
    rintro rfl
    refine (lastHeard_unique h6 (⟨[], _, rfl, ?_, ?_⟩ : LastHeardOn exLevel (climbed (n + 1)) 3000 _)).1
    · simp [onFloor, heardSig, low_tx]
    · intro w hw
      obtain ⟨k, -, rfl⟩ := List.mem_map.mp hw
      simp [onFloor, heardSig, low_tx]
  have hup : lv = upLevel → t0 = 5000 + 2000 * n := by
    rintro rfl
    have e2 : climbed (n + 1) = climbed n ++ [(5000 + 2000 * (n : Int), [heardSig "ty" (5000 + 2000 * n)])] := by
      simp [climbed, List.range_succ]
    rw [e2] at h6
    exact (lastHeard_unique h6 (lastHeard_now _ _ (by simp [onFloor, heardSig, up_tx]))).1
  have hidA : exLevel.id = "A" := rfl
  have hidB : upLevel.id = "B" := rfl
  refine ⟨s, outs, s', out, dbg, h1, h2, fun hn => ?_, fun hn hn' => ?_, fun hn => ?_⟩
  · rw [if_pos (by omega)] at h5
    rcases h3 with rfl | rfl
    · obtain ⟨a1, a2, -⟩ := h9 ⟨hbox, by rw [hlow rfl]; omega⟩
      exact ⟨a1, a2⟩
    · rw [hidB] at h5; exact absurd h5 (by decide)
  · rw [if_pos (by omega)] at h5
    rcases h3 with rfl | rfl
    · obtain ⟨-, -, a3⟩ := h10 (fun h => by have := h.2; rw [hlow rfl] at this; omega)
      refine a3 ?_
      rintro ⟨-, t1, w1, e1, e2⟩
      obtain ⟨cl', hcut'⟩ := climb_cut n
      have := (cut_next hcut' (.inr rfl) (id := "ty") (t := 5000 + 2000 * n) (by omega)).1
      rw [htk] at e1
      rw [this] at e1
      cases e1
      exact e2 (by simp [onFloor, heardSig, low_tx])
    · rw [hidB] at h5; exact absurd h5 (by decide)
  · rw [if_neg (by omega)] at h5
    rcases h3 with rfl | rfl
    · rw [hidA] at h5; exact absurd h5 (by decide)
    · obtain ⟨a1, a2, -⟩ := h9 ⟨hbox, by rw [hup rfl]; omega⟩
      exact ⟨a1, a2⟩

end Verif.Floors
