import Verif.Track.Lemmas

/-!
# Property theorems for C123: what a client with its default settings answers on one floor
-/

namespace Verif.Track

open Verif.Levels Verif.Nav Verif.Floors
open Verif.Geo (XYPoint)
open Verif.Knn (Result)

/-- What the state of the client holds after the measurements `ms`. -/
structure Tracked (lv : Level) (c : Cfg) (ms : List Measurement) (s : State) : Prop where
  buffered : Buffered c.cs (windows [lv] c.cs ms) s.pre.buffer
  pending : ∀ h ∈ (windows [lv] c.cs ms).pending, Radio.Admissible [lv] c.cs h.data
  before : (windows [lv] c.cs ms).closed = none → s.level.history.isInitialized = false ∧ s.level.history.current = "" ∧
    s.post.indoorPos = Position.default ∧ Gnss s.position
  after : ∀ t0 win, (windows [lv] c.cs ms).closed = some (t0, win) →
    s.level.history.isInitialized = true ∧ s.level.history.current = lv.id ∧
    ∃ b t, ZoneAt c lv t0 win b t s.post.indoorPos
  follows : Follows c.cs (c.env.allowed lv) lv (fixesOf lv c.cs ms) s.post
  opened : ∀ k, track c.cs (c.env.allowed lv) (fixesOf lv c.cs ms) = some k →
    ∃ o t0 win, (windows [lv] c.cs ms).opened = some o ∧ (windows [lv] c.cs ms).closed = some (t0, win) ∧ k.time ≤ t0 ∧ t0 ≤ o ∧
      (k.time = t0 ↔ ∃ p, FixAt lv win p)
  fixed : ∀ t0 win p, (windows [lv] c.cs ms).closed = some (t0, win) → FixAt lv win p →
    ∃ k, track c.cs (c.env.allowed lv) (fixesOf lv c.cs ms) = some k

theorem tracked_init (lv : Level) (c : Cfg) (hp : SmoothZones c.cs) (g : Garbage) : Tracked lv c [] (init c g) := by
  have hs := span_pos hp.toWindowed
  constructor
  · constructor
    · rfl
    · exact fun _ => ⟨rfl, rfl⟩
    · intro t h; cases h
    · exact hs
  · intro h hh; cases hh
  · exact fun _ => ⟨rfl, rfl, rfl, fun h => (by cases h)⟩
  · intro _ _ h; cases h
  · exact follows_init c.cs hp.filter _ lv
  · intro k hk; cases hk
  · intro _ _ _ h; cases h

/-- What the client holds after a recent signal. -/
structure Answered (lv : Level) (c : Cfg) (ms : List Measurement) (m : Measurement) (s' : State) (st : NavigationStatus) : Prop where
  before : (windows [lv] c.cs (ms ++ [m])).closed = none → Gnss s'.position
  inside : ∀ t0 win, (windows [lv] c.cs (ms ++ [m])).closed = some (t0, win) →
    Estim.Box.Covers lv.geometry.boundingBox s'.post.indoorPos.toXY → m.ts - t0 < ⌊1000 * c.cs.deadReckoningTime⌋ →
    ∃ k, track c.cs (c.env.allowed lv) (fixesOf lv c.cs (ms ++ [m])) = some k ∧ s'.position.isEmpty = false ∧ s'.position.levelId = lv.id ∧
      s'.position.provider = .INDOOR ∧ s'.position.deviationM = s'.post.indoorPos.deviationM ∧
      s'.position.toXY = shown lv.geometry.boundingBox k.place
  outside : ∀ t0 win, (windows [lv] c.cs (ms ++ [m])).closed = some (t0, win) →
    ¬ (Estim.Box.Covers lv.geometry.boundingBox s'.post.indoorPos.toXY ∧ m.ts - t0 < ⌊1000 * c.cs.deadReckoningTime⌋) →
    s'.position = Position.default ∧ (Closes [lv] c.cs ms m → st = .OK) ∧ (¬ Closes [lv] c.cs ms m → st = .NO_SOLUTION)

theorem zone_fix {c : Cfg} {lv : Level} {t0 : Int} {win : List RadioMeasurement} {b : String} {t : Transmitter XYZPoint} {p : Position}
    (h : ZoneAt c lv t0 win b t p) :
    (Estim.Box.Covers lv.geometry.boundingBox p.toXY → FixAt lv win p.toXY) ∧
    (¬ Estim.Box.Covers lv.geometry.boundingBox p.toXY → ¬ ∃ q, FixAt lv win q) := by
  have hxy : p.toXY = ⟨t.point.x, t.point.y⟩ := by simp [Position.toXY, h.x, h.y]
  refine ⟨fun hb => ⟨b, t, h.strongest, h.tx, hxy, hb⟩, ?_⟩
  rintro hb ⟨q, b', t', g1, g2, g3, g4⟩
  have := strongest_unique h.strongest g1
  subst this
  rw [h.tx] at g2
  cases g2
  rw [g3, ← hxy] at g4
  exact hb g4

theorem reckoning_pos {cs : CommonSettings} (hp : Smoothed cs) : 0 < ⌊1000 * cs.deadReckoningTime⌋ := by
  have := hp.alive
  rw [Int.floor_pos]
  linarith

theorem tracked_step {lv : Level} {c : Cfg} (hc : Client [lv] c) (hp : SmoothZones c.cs) {g : Garbage} {ms : List Measurement} {s : State}
    (ht : Traced [lv] c g ms s) (hz : Tracked lv c ms s) {m : Measurement} (hts : 0 < m.ts) {s' : State} {out : Output} {x : Sensed}
    {l : Located} (hst : Stepped [lv] c s m s' out x l) :
    Tracked lv c (ms ++ [m]) s' ∧ (Fresh [lv] c.cs ms m → Answered lv c ms m s' l.status) := by
  obtain ⟨-, h1, h2, -, -, -, h7, ⟨d, h8, h9⟩, -⟩ := sense_parts hst.sense
  obtain ⟨f1, -, f3, -⟩ := locate_frame hst.locate
  have hid : lv.id ≠ "" := hc.map.named lv (by simp)
  have hna : 0 < c.noAction := by have := hp.noAction; rw [hc.parts.noAction]; omega
  have hto : timedOutLevel c x = "" ∨ timedOutLevel c x = x.levelId := by
    rw [timedOut_eq ht.inv hna hst.sense]
    split_ifs
    · exact Or.inl rfl
    · exact Or.inr rfl
  obtain ⟨hb, hcase⟩ := framed_radio hc hp.toWindowed.framed hz.buffered hts h1
  rw [← windows_snoc, ← h2, ← f1, ← hst.state] at hb
  have hopen : ∀ o, (windows [lv] c.cs ms).opened = some o → ∃ o', (windows [lv] c.cs (ms ++ [m])).opened = some o' ∧
      (¬ Closes [lv] c.cs ms m → o' = o) := by
    intro o ho
    rw [windows_snoc]
    by_cases hh : Heard [lv] c.cs m
    · obtain ⟨d', hd', ha'⟩ := hh
      obtain ⟨md, mts⟩ := m
      dsimp only at hd'
      subst hd'
      rw [take_heard _ ha']
      unfold Windows.hear
      dsimp only
      split_ifs with hcl
      · exact ⟨_, rfl, fun h => absurd ⟨⟨d', rfl, ha'⟩, hcl⟩ h⟩
      · exact ⟨_, rfl, fun _ => by rw [ho]; rfl⟩
    · rw [take_not_heard _ hh]
      exact ⟨o, ho, fun _ => rfl⟩
  rw [← windows_snoc] at hcase
  rw [hp.barometer] at h9
  unfold LevelEst.calculateLevel at h9
  simp only [Bool.false_eq_true, if_false, Prod.mk.injEq] at h9
  obtain ⟨g1, g2⟩ := h9
  have g2' : s'.level.history = (LevelEst.detectLevelUsingHistory s.level.history d).2 := by
    rw [hst.state, f3, ← g2]
  -- the branch for a level
  have hlevel : timedOutLevel c x = lv.id → ∃ i p ph, AtLevel [lv] c s x lv i p ph := by
    intro h
    obtain ⟨lv', i, p, ph, ha⟩ := locate_level hc ht.inv hst.sensed ⟨lv, by simp, h.symm⟩
    have : lv' = lv := by simpa using ha.mem
    subst this
    exact ⟨i, p, ph, ha⟩
  rcases hcase with ⟨hr, hncl, hcl, hpe, hpn⟩ | ⟨hclose, dd, win, hd, had, hwin, hcl, hpe, hho, -⟩
  · -- nothing is handed out
    have hncl' : ¬ Closes [lv] c.cs ms m := hncl
    have hfx : fixesOf lv c.cs (ms ++ [m]) = fixesOf lv c.cs ms := by
      unfold fixesOf
      rw [closedWindows_snoc, if_neg hncl']
      simp
    rw [hr, detect_nothing hc] at h8
    cases h8
    have e0 : LevelEst.detectLevelUsingHistory s.level.history "" = (s.level.history.current, s.level.history) := by
      simp [LevelEst.detectLevelUsingHistory]
    rw [e0] at g1 g2'
    dsimp only at g1 g2'
    have hpend : ∀ h ∈ (windows [lv] c.cs (ms ++ [m])).pending, Radio.Admissible [lv] c.cs h.data := by
      by_cases hh : Heard [lv] c.cs m
      · rw [hpe hh]
        obtain ⟨dd, hd, ha⟩ := hh
        intro h hm
        rcases List.mem_append.mp hm with hm | hm
        · exact hz.pending h hm
        · rw [List.mem_singleton] at hm
          rw [hm, hd]
          exact ha
      · rw [hpn hh]; exact hz.pending
    -- without a level
    have hnow : timedOutLevel c x = "" → s'.post = s.post ∧ (Gnss s.position → Gnss s'.position) := by
      intro h
      obtain ⟨-, a2, -, -, a5⟩ := locate_nowhere hc hst.locate h
      rw [hst.state]
      refine ⟨a2, ?_⟩
      rcases a5 with ⟨-, a, -⟩ | ⟨-, a, -⟩ <;> rw [a]
      · exact fun _ => (gnss_sense ht.gnss hst.sense).1
      · exact fun h => h
    -- with the level
    have hat : timedOutLevel c x = lv.id → ∀ t0 win, (windows [lv] c.cs ms).closed = some (t0, win) →
        s'.post.indoorPos = s.post.indoorPos ∧ l.status = .NO_SOLUTION ∧
        Follows c.cs (c.env.allowed lv) lv (fixesOf lv c.cs ms) s'.post ∧
        (Estim.Box.Covers lv.geometry.boundingBox s.post.indoorPos.toXY ∧ m.ts - t0 < ⌊1000 * c.cs.deadReckoningTime⌋ →
          ∃ k, track c.cs (c.env.allowed lv) (fixesOf lv c.cs ms) = some k ∧ s'.position.isEmpty = false ∧ s'.position.levelId = lv.id ∧
            s'.position.provider = .INDOOR ∧ s'.position.deviationM = s.post.indoorPos.deviationM ∧
            s'.position.toXY = shown lv.geometry.boundingBox k.place) ∧
        (¬ (Estim.Box.Covers lv.geometry.boundingBox s.post.indoorPos.toXY ∧ m.ts - t0 < ⌊1000 * c.cs.deadReckoningTime⌋) →
            s'.position = Position.default) := by
      intro h t0 win hs
      obtain ⟨-, -, b, t, z3⟩ := hz.after t0 win hs
      obtain ⟨i, p, ph, ha⟩ := hlevel h
      have hi := ha.indoor
      rw [hr, handed_nothing hc hp.toByZones] at hi
      cases hi
      have hl := ha.located
      rw [hst.locate] at hl
      obtain ⟨k1, k2⟩ := plain_fused hp.toWindowed s.post x.pre.currentTs Position.default x.outdoorPos .NO_SOLUTION
      have k1' : (Post.fusePositions c.cs s.post x.pre.currentTs Position.default x.outdoorPos .NO_SOLUTION).2.indoorPos =
          s.post.indoorPos := k1
      have kf : Follows c.cs (c.env.allowed lv) lv (fixesOf lv c.cs ms)
          (Post.fusePositions c.cs s.post x.pre.currentTs Position.default x.outdoorPos .NO_SOLUTION).2 := by
        refine ⟨?_, ?_⟩
        · have : (Post.fusePositions c.cs s.post x.pre.currentTs Position.default x.outdoorPos .NO_SOLUTION).2.smoother = s.post.smoother := by
            simp only [Post.fusePositions, Post.fillOutdoor, Post.fillIndoor]
            split_ifs <;> rfl
          rw [this]; exact hz.follows.smoother
        · have : (Post.fusePositions c.cs s.post x.pre.currentTs Position.default x.outdoorPos .NO_SOLUTION).2.lastOut = s.post.lastOut := by
            simp only [Post.fusePositions, Post.fillOutdoor, Post.fillIndoor]
            split_ifs <;> rfl
          rw [this]; exact hz.follows.level
      have hpr := ha.processed
      rw [k2, k1'] at hpr
      obtain ⟨q1, q2, q3⟩ := follows_step hp.toSmoothed hid kf s.post.indoorPos (fun _ => ⟨z3.levelId, z3.provider⟩) _ _ hpr (by
        intro k hk
        obtain ⟨o, t0', win', -, o2, o3, -⟩ := hz.opened k hk
        rw [hs, Option.some.injEq, Prod.mk.injEq] at o2
        rw [z3.ts, o2.1]; exact o3)
      rw [k1'] at q1 q2
      rw [h7, z3.ts] at q2 q3
      have es : s'.position = p.1 ∧ s'.post = p.2 ∧ l.status = .NO_SOLUTION := by
        rw [hst.state]
        cases hl
        exact ⟨rfl, rfl, rfl⟩
      rw [es.1, es.2.1]
      have same : Estim.Box.Covers lv.geometry.boundingBox s.post.indoorPos.toXY →
          ∃ k, track c.cs (c.env.allowed lv) (fixesOf lv c.cs ms) = some k ∧ k.time = t0 := by
        intro hbx
        have hfx := (zone_fix z3).1 hbx
        obtain ⟨k, hk⟩ := hz.fixed t0 win _ hs hfx
        obtain ⟨o, t0', win', -, o2, -, -, o5⟩ := hz.opened k hk
        rw [hs, Option.some.injEq, Prod.mk.injEq] at o2
        rw [← o2.1, ← o2.2] at o5
        exact ⟨k, hk, o5.mpr ⟨_, hfx⟩⟩
      refine ⟨q1, es.2.2, ?_, ?_, ?_⟩
      · by_cases hbx : Estim.Box.Covers lv.geometry.boundingBox s.post.indoorPos.toXY ∧ m.ts - t0 < ⌊1000 * c.cs.deadReckoningTime⌋
        · obtain ⟨fs', k, -, r2, r3, -⟩ := q2 ⟨z3.isEmpty, hbx⟩
          rw [r2.mpr (same hbx.1)] at r3
          exact r3
        · exact (q3 (fun h => hbx h.2)).2
      · intro hbx
        obtain ⟨fs', k, -, r2, -, r4, r5⟩ := q2 ⟨z3.isEmpty, hbx⟩
        rw [r2.mpr (same hbx.1)] at r4
        exact ⟨k, r4, r5⟩
      · exact fun hbx => (q3 (fun h => hbx h.2)).1
    refine ⟨⟨hb, hpend, ?_, ?_, ?_, ?_, ?_⟩, fun hf => ?_⟩
    · intro hnone
      rw [hcl] at hnone
      obtain ⟨z1, z2, z3, z4⟩ := hz.before hnone
      have h0 : timedOutLevel c x = "" := by
        rcases hto with h | h
        · exact h
        · rw [h, ← g1]; exact z2
      obtain ⟨n1, n2⟩ := hnow h0
      rw [g2']
      exact ⟨z1, z2, by rw [n1]; exact z3, n2 z4⟩
    · intro t0 win hs
      rw [hcl] at hs
      obtain ⟨z1, z2, b, t, z3⟩ := hz.after t0 win hs
      rw [g2']
      refine ⟨z1, z2, b, t, ?_⟩
      rcases hto with h | h
      · rw [(hnow h).1]; exact z3
      · rw [← g1, z2] at h
        rw [(hat h t0 win hs).1]; exact z3
    · rw [hfx]
      cases hw : (windows [lv] c.cs ms).closed with
      | none =>
        obtain ⟨-, z2, -⟩ := hz.before hw
        have h0 : timedOutLevel c x = "" := by
          rcases hto with h | h
          · exact h
          · rw [h, ← g1]; exact z2
        rw [(hnow h0).1]; exact hz.follows
      | some r =>
        obtain ⟨-, z2, -⟩ := hz.after r.1 r.2 hw
        rcases hto with h | h
        · rw [(hnow h).1]; exact hz.follows
        · rw [← g1, z2] at h
          exact (hat h r.1 r.2 hw).2.2.1
    · rw [hfx, hcl]
      intro k hk
      obtain ⟨o, t0, win, o1, o2, o3, o4, o5⟩ := hz.opened k hk
      obtain ⟨o', p1, p2⟩ := hopen o o1
      exact ⟨o', t0, win, p1, o2, o3, by rw [p2 hncl']; exact o4, o5⟩
    · rw [hfx, hcl]; exact hz.fixed
    · have hfl := fresh_level hc hp.noAction ht hf hst.sense
      have key : ∀ t0 win, (windows [lv] c.cs (ms ++ [m])).closed = some (t0, win) →
          timedOutLevel c x = lv.id ∧ (windows [lv] c.cs ms).closed = some (t0, win) := by
        intro t0 win hs
        rw [hcl] at hs
        obtain ⟨-, z2, b, t, z3⟩ := hz.after t0 win hs
        exact ⟨by rw [hfl, ← g1]; exact z2, hs⟩
      refine ⟨?_, ?_, ?_⟩
      · intro hnone
        rw [hcl] at hnone
        obtain ⟨z1, z2, z3, z4⟩ := hz.before hnone
        exact (hnow (by rw [hfl, ← g1]; exact z2)).2 z4
      · intro t0 win hs hbox hage
        obtain ⟨k1, k2⟩ := key t0 win hs
        obtain ⟨q1, -, -, q3, -⟩ := hat k1 t0 win k2
        rw [q1] at hbox ⊢
        rw [hfx]
        exact q3 ⟨hbox, hage⟩
      · intro t0 win hs hbad
        obtain ⟨k1, k2⟩ := key t0 win hs
        obtain ⟨q1, q2, -, -, q3⟩ := hat k1 t0 win k2
        rw [q1] at hbad
        exact ⟨q3 hbad, fun h => absurd h hncl', fun _ => q2⟩
  · -- a window is closed
    have hheard : Heard [lv] c.cs m := ⟨dd, hd, had⟩
    have hcloses : Closes [lv] c.cs ms m := ⟨hheard, hclose⟩
    have hadm : ∀ h ∈ win, Radio.Admissible [lv] c.cs h.data := by
      intro h hm
      rw [hwin] at hm
      rcases List.mem_append.mp hm with hm | hm
      · exact hz.pending h hm
      · rw [List.mem_singleton] at hm
        rw [hm]; exact had
    have hne : win ≠ [] := by rw [hwin]; simp
    have hcw : closedWindows [lv] c.cs (ms ++ [m]) = closedWindows [lv] c.cs ms ++ [(m.ts, win)] := by
      rw [closedWindows_snoc, if_pos hcloses, hcl]
      rfl
    rw [handed_level hc hp.toByZones hho hne hadm] at h8
    cases h8
    obtain ⟨e1, e2, e3⟩ := history_same (h := s.level.history) hid (by
      intro hi
      cases hw : (windows [lv] c.cs ms).closed with
      | none => rw [(hz.before hw).1] at hi; cases hi
      | some r => exact (hz.after r.1 r.2 hw).2.1)
    have hf : Fresh [lv] c.cs ms m :=
      ⟨ms, m, [], rfl, hheard, by simp, by have := hp.noSignal; omega⟩
    have hlv : timedOutLevel c x = lv.id := by
      rw [fresh_level hc hp.noAction ht hf hst.sense, ← g1, e1]
    obtain ⟨i, p, ph, ha⟩ := hlevel hlv
    obtain ⟨q, b, t, hq, hzone⟩ := handed_zone hc hp.toByZones hho hne hadm s.indoorPos x.pre.currentTs
    have hi := ha.indoor
    rw [hq] at hi
    cases hi
    rw [h7] at hzone
    have hl := ha.located
    rw [hst.locate] at hl
    obtain ⟨k1, k2⟩ := plain_fused hp.toWindowed s.post x.pre.currentTs q x.outdoorPos .OK
    have k1' : (Post.fusePositions c.cs s.post x.pre.currentTs q x.outdoorPos .OK).2.indoorPos = q := by
      rw [k1, hzone.isEmpty]; rfl
    have kf : Follows c.cs (c.env.allowed lv) lv (fixesOf lv c.cs ms)
        (Post.fusePositions c.cs s.post x.pre.currentTs q x.outdoorPos .OK).2 := by
      refine ⟨?_, ?_⟩
      · have : (Post.fusePositions c.cs s.post x.pre.currentTs q x.outdoorPos .OK).2.smoother = s.post.smoother := by
          simp only [Post.fusePositions, Post.fillOutdoor, Post.fillIndoor]
          split_ifs <;> rfl
        rw [this]; exact hz.follows.smoother
      · have : (Post.fusePositions c.cs s.post x.pre.currentTs q x.outdoorPos .OK).2.lastOut = s.post.lastOut := by
          simp only [Post.fusePositions, Post.fillOutdoor, Post.fillIndoor]
          split_ifs <;> rfl
        rw [this]; exact hz.follows.level
    have hpr := ha.processed
    rw [k2, k1'] at hpr
    have hlt : ∀ k, track c.cs (c.env.allowed lv) (fixesOf lv c.cs ms) = some k → k.time < m.ts := by
      intro k hk
      obtain ⟨o, t0', win', o1, -, o3, o4, -⟩ := hz.opened k hk
      rw [o1] at hclose
      have := span_pos hp.toWindowed
      simp only [Option.getD_some] at hclose
      omega
    obtain ⟨q1, q2, q3⟩ := follows_step hp.toSmoothed hid kf q (fun _ => ⟨hzone.levelId, hzone.provider⟩) _ _ hpr (by
      intro k hk
      rw [hzone.ts]; exact (hlt k hk).le)
    rw [k1'] at q1 q2
    rw [h7, hzone.ts, sub_self] at q2 q3
    have es : s'.position = p.1 ∧ s'.post = p.2 ∧ l.status = .OK := by
      rw [hst.state]
      cases hl
      exact ⟨rfl, rfl, rfl⟩
    have hpos : s'.post.indoorPos = q := by rw [es.2.1]; exact q1
    have hrp := reckoning_pos hp.toSmoothed
    obtain ⟨zf1, zf2⟩ := zone_fix hzone
    -- the new fix
    have hnew : Estim.Box.Covers lv.geometry.boundingBox q.toXY → fixesOf lv c.cs (ms ++ [m]) = fixesOf lv c.cs ms ++ [⟨m.ts, q.toXY⟩] ∧
        Follows c.cs (c.env.allowed lv) lv (fixesOf lv c.cs (ms ++ [m])) s'.post ∧
        ∃ k, track c.cs (c.env.allowed lv) (fixesOf lv c.cs (ms ++ [m])) = some k ∧ s'.position.isEmpty = false ∧ s'.position.levelId = lv.id ∧
            s'.position.provider = .INDOOR ∧ s'.position.deviationM = q.deviationM ∧
            s'.position.toXY = shown lv.geometry.boundingBox k.place := by
      intro hbx
      have e : fixesOf lv c.cs (ms ++ [m]) = fixesOf lv c.cs ms ++ [⟨m.ts, q.toXY⟩] := by
        unfold fixesOf
        rw [hcw]
        exact (fixes_snoc lv _ m.ts win).1 _ (zf1 hbx)
      obtain ⟨fs', k, r1, r2, r3, r4, r5⟩ := q2 ⟨hzone.isEmpty, hbx, hrp⟩
      have r6 : fs' = fixesOf lv c.cs ms ++ [⟨m.ts, q.toXY⟩] := by
        rcases r1 with r1 | r1
        · exact r1
        · obtain ⟨k, hk, hk'⟩ := r2.mp r1
          exact absurd hk' (hlt k hk).ne
      rw [r6, ← e] at r3 r4
      rw [es.1, es.2.1]
      exact ⟨e, r3, k, r4, r5⟩
    have hold : ¬ Estim.Box.Covers lv.geometry.boundingBox q.toXY → fixesOf lv c.cs (ms ++ [m]) = fixesOf lv c.cs ms ∧
        Follows c.cs (c.env.allowed lv) lv (fixesOf lv c.cs (ms ++ [m])) s'.post := by
      intro hbx
      have e : fixesOf lv c.cs (ms ++ [m]) = fixesOf lv c.cs ms := by
        unfold fixesOf
        rw [hcw]
        exact (fixes_snoc lv _ m.ts win).2 (zf2 hbx)
      rw [e, es.2.1]
      exact ⟨rfl, (q3 (fun h => hbx h.2.1)).2⟩
    have hop : (windows [lv] c.cs (ms ++ [m])).opened = some m.ts := by
      rw [windows_snoc]
      obtain ⟨md, mts⟩ := m
      dsimp only at hd hclose ⊢
      subst hd
      rw [take_heard _ had]
      unfold Windows.hear
      dsimp only
      rw [if_pos hclose]
    refine ⟨⟨hb, (by rw [hpe]; intro h hm; cases hm), ?_, ?_, ?_, ?_, ?_⟩, fun _ => ⟨?_, ?_, ?_⟩⟩
    · intro hnone; rw [hcl] at hnone; cases hnone
    · intro t0 win' hs
      rw [hcl] at hs
      cases hs
      rw [g2', hpos]
      exact ⟨e3, e2, b, t, hzone⟩
    · by_cases hbx : Estim.Box.Covers lv.geometry.boundingBox q.toXY
      · exact (hnew hbx).2.1
      · exact (hold hbx).2
    · intro k hk
      refine ⟨m.ts, m.ts, win, hop, hcl, ?_⟩
      by_cases hbx : Estim.Box.Covers lv.geometry.boundingBox q.toXY
      · have hkt : k.time = m.ts := by
          rw [(hnew hbx).1] at hk
          exact track_time _ _ _ _ hk
        exact ⟨hkt.le, le_refl _, fun _ => ⟨_, zf1 hbx⟩, fun _ => hkt⟩
      · rw [(hold hbx).1] at hk
        have := hlt k hk
        exact ⟨this.le, le_refl _, fun h => absurd h this.ne, fun h => absurd h (zf2 hbx)⟩
    · intro t0 win' pp hs hfp
      rw [hcl] at hs
      cases hs
      by_cases hbx : Estim.Box.Covers lv.geometry.boundingBox q.toXY
      · obtain ⟨-, -, k, hk, -⟩ := hnew hbx
        exact ⟨k, hk⟩
      · exact absurd ⟨pp, hfp⟩ (zf2 hbx)
    · intro hnone; rw [hcl] at hnone; cases hnone
    · intro t0 win' hs hbox hage
      rw [hcl] at hs
      cases hs
      rw [hpos] at hbox ⊢
      exact (hnew hbox).2.2
    · intro t0 win' hs hbad
      rw [hcl] at hs
      cases hs
      rw [hpos] at hbad
      rw [es.1]
      have hbx : ¬ Estim.Box.Covers lv.geometry.boundingBox q.toXY := fun h => hbad ⟨h, by rw [sub_self]; exact hrp⟩
      exact ⟨(q3 (fun h => hbx h.2.1)).1, fun _ => es.2.2, fun h => absurd hcloses h⟩

theorem tracked_runs {lv : Level} {c : Cfg} (hc : Client [lv] c) (hp : SmoothZones c.cs) (g : Garbage) (ms : List Measurement)
    (hts : ∀ m ∈ ms, 0 < m.ts) {s : State} {outs : List (Output × DebugState)} (h : runs c (init c g) ms = .ok (s, outs)) :
    Tracked lv c ms s := by
  induction ms using List.reverseRecOn generalizing s outs with
  | nil => cases h; exact tracked_init lv c hp g
  | append_singleton ms m ih =>
    obtain ⟨s1, outs1, r, h1, h2, -⟩ := runs_snoc h
    have ht := traced_runs hc g ms h1
    obtain ⟨-, x, l, hst, -⟩ := traced_step hc ht h2
    exact (tracked_step hc hp ht (ih (fun m hm => hts m (by simp [hm])) h1) (hts m (by simp)) hst).1

/-- **C123.** A client with one floor that locates by zones and smooths with the alpha-beta filter (as with the default settings),
after any history of measurements with positive times, gets a measurement while the last admitted signal is younger than the
no-signal threshold.  If a window of signals was closed (by this or an earlier measurement), there is a strongest transmitter in the
last closed window, and it is on the floor. If it lies in the bounding box of the floor and the window is younger than the dead
reckoning time, the answer is OK, names the floor, and shows the place that the motion of all fixes so far has reached (moved into the
box and rounded down to centimetres), with the precision of the last window; otherwise the answer has no place, and its status
is NAVIGATION_ERROR if this measurement closed the window and NO_SOLUTION if not. -/
theorem C123_answer {lv : Level} {c : Cfg} (hc : Client [lv] c) (hp : SmoothZones c.cs) (g : Garbage) (batches : List (List Measurement))
    {s : State} {outs : List (Output × DebugState)} (h : navigateAll c (init c g) batches = .ok (s, outs)) (m : Measurement)
    (hts : ∀ e ∈ taken batches ++ [m], 0 < e.ts) (hf : Fresh [lv] c.cs (taken batches) m)
    {t0 : Int} {win : List RadioMeasurement} (hw : (windows [lv] c.cs (taken batches ++ [m])).closed = some (t0, win)) :
    ∃ s' out dbg b t, navigate c s [m] = .ok (s', [(out, dbg)]) ∧ Strongest win b ∧ lv.transmitter b = some t ∧
      dbg.indoorPosition = ⟨t.point.x, t.point.y⟩ ∧
      (Estim.Box.Covers lv.geometry.boundingBox ⟨t.point.x, t.point.y⟩ ∧ m.ts - t0 < ⌊1000 * c.cs.deadReckoningTime⌋ →
        out.status = .OK ∧ out.posLevel = lv.id ∧ out.provider = some .INDOOR ∧
        (∃ k, track c.cs (c.env.allowed lv) (fixesOf lv c.cs (taken batches ++ [m])) = some k ∧
          (⟨out.posLatitude, out.posLongitude⟩ : Geo.GeoPoint) =
            Geo.localToGps (shown lv.geometry.boundingBox k.place) lv.bindingPoint) ∧
        ∃ r, out.posR = some r ∧ ∀ A B a b', c.indoor = .zone A B → StdMap.find? A lv.id = some a →
          StdMap.find? B lv.id = some b' → b' ≠ 0 → 1 < r ∧ r = Real.exp ((a - meanRssi win b) / (2 * b')) + 1) ∧
      (¬ (Estim.Box.Covers lv.geometry.boundingBox ⟨t.point.x, t.point.y⟩ ∧ m.ts - t0 < ⌊1000 * c.cs.deadReckoningTime⌋) →
        Blank out ∧ (Closes [lv] c.cs (taken batches) m → out.status = .NAVIGATION_ERROR) ∧
        (¬ Closes [lv] c.cs (taken batches) m → out.status = .NO_SOLUTION)) := by
  have ht := history_traced hc h
  rw [navigateAll_eq] at h
  have hz := tracked_runs hc hp g _ (fun e he => hts e (by simp [he])) h
  obtain ⟨s', out, dbg, x, l, h1, hst, hdbg⟩ := one_parts hc ht.inv m
  obtain ⟨hz', han⟩ := tracked_step hc hp ht hz (hts m (by simp)) hst
  obtain ⟨-, -, b, t, hzone⟩ := hz'.after t0 win hw
  have han := han hf
  have hxy : s'.post.indoorPos.toXY = ⟨t.point.x, t.point.y⟩ := by
    simp [Position.toXY, hzone.x, hzone.y]
  obtain ⟨hsh, -, herr⟩ := stepped_shows hc hst
  refine ⟨s', out, dbg, b, t, h1, hzone.strongest, hzone.tx, ?_, ?_, ?_⟩
  · rw [hdbg]
    simp [debugState, hzone.x, hzone.y]
  · rintro ⟨hbox, hage⟩
    obtain ⟨k, hk, p1, p2, p3, p4, p5⟩ := han.inside t0 win hw (by rw [hxy]; exact hbox) hage
    rcases hsh with ⟨he, -⟩ | ⟨he, hok, lv', hlv', hid, e1, e2, e3, e4, e5⟩
    · rw [p1] at he
      cases he
    have : lv' = lv := by simpa using hlv'
    subst this
    refine ⟨hok, ?_, ?_, ⟨k, hk, ?_⟩, s'.post.indoorPos.deviationM, ?_, hzone.formula⟩
    · rw [e1, p2]
    · rw [e5, p3]
    · rw [e2, e3, p5]
    · rw [e4, p4]
  · intro hbad
    obtain ⟨hpos, hs1, hs2⟩ := han.outside t0 win hw (by rw [hxy]; exact hbad)
    have hemp : s'.position.isEmpty = true := by rw [hpos]; rfl
    rcases hsh with ⟨-, -, hb⟩ | ⟨he, -⟩
    swap
    · rw [hemp] at he; cases he
    have hst' := herr hemp
    refine ⟨hb, fun h => ?_, fun h => ?_⟩
    · rw [hst', hs1 h]; rfl
    · rw [hst', hs2 h]; rfl

/-- **C123.** Before the first window is closed no place comes from the transmitters: an answer with a place shows the
satellite receiver's one. -/
theorem C123_first_window {lv : Level} {c : Cfg} (hc : Client [lv] c) (hp : SmoothZones c.cs) (g : Garbage) (batches : List (List Measurement))
    {s : State} {outs : List (Output × DebugState)} (h : navigateAll c (init c g) batches = .ok (s, outs))
    (hts : ∀ e ∈ taken batches, 0 < e.ts) (hw : (windows [lv] c.cs (taken batches)).closed = none) :
    ∀ o ∈ outs.getLast?, o.1.status = .OK → o.1.provider = some .GNSS := by
  intro o ho hok
  rw [navigateAll_eq] at h
  have hz := tracked_runs hc hp g _ hts h
  rcases last_shows hc (inv_init hc g) _ h ho with ⟨-, hne, -⟩ | ⟨he, -, lv', -, -, -, -, -, -, e5⟩
  · exact absurd hok hne
  · rw [e5, (hz.before hw).2.2.2 he]

/-- **C123.** A window has at most one fix. -/
theorem C123_fix_unique {lv : Level} {win : List RadioMeasurement} {p q : XYPoint} (hp : FixAt lv win p) (hq : FixAt lv win q) : p = q :=
  fixAt_unique hp hq

/-- **C123** is about the default settings. -/
theorem C123_default : SmoothZones {} := by
  refine ⟨⟨?_, rfl, rfl, rfl, ?_⟩, ?_⟩
  · exact ⟨by constructor <;> norm_num, rfl⟩
  · norm_num
  · constructor <;> simp <;> norm_num

end Verif.Track
