import Verif.Prints.Lemmas

/-!
# Property theorems for C119: what a client with fingerprints on several floors answers
-/

namespace Verif.Prints

open Verif.Levels Verif.Nav
open Verif.Knn (Result)
open Verif.Floors

/-- What the state of the client holds after the measurements `ms`. -/
structure Printed (ls : List Level) (c : Cfg) (ms : List Measurement) (s : State) : Prop where
  buffered : Buffered c.cs (windows ls c.cs ms) s.pre.buffer
  voted : ∃ ds, List.Forall₂ (fun w d => WindowFloor ls w.2 d) (closedWindows ls c.cs ms) ds ∧
    Counted (votes (ds.filterMap (Option.map Level.id))) s.level.history
  same : s.indoorPos = s.post.indoorPos
  place : (NoFix c.env.triSorts ls c.cs (closedWindows ls c.cs ms) ∧ s.indoorPos = Position.default ∧ Gnss s.position) ∨
    ∃ lv t0 win, LastFix c.env.triSorts ls c.cs (closedWindows ls c.cs ms) lv t0 win ∧ FixAt c lv t0 win s.indoorPos

theorem printed_init (ls : List Level) (c : Cfg) (hp : PlainFingerprints c.cs) (g : Garbage) : Printed ls c [] (init c g) := by
  have hs := span_pos hp.toWindowed
  constructor
  · constructor
    · rfl
    · exact fun _ => ⟨rfl, rfl⟩
    · intro t h; cases h
    · exact hs
  · exact ⟨[], List.Forall₂.nil, rfl, rfl, fun _ => rfl⟩
  · rfl
  · refine Or.inl ⟨?_, rfl, fun h => (by cases h)⟩
    intro a w b h
    rw [closedWindows_nil] at h
    simp at h

/-- What the client answers from, after a recent signal: `lv` is the floor in use. -/
structure Placed (ls : List Level) (c : Cfg) (ms : List Measurement) (m : Measurement) (lv : Level) (t0 : Int) (s' : State)
    (st : NavigationStatus) : Prop where
  inside : Estim.Box.Covers lv.geometry.boundingBox s'.indoorPos.toXY ∧ m.ts - t0 < ⌊1000 * c.cs.deadReckoningTime⌋ →
    s'.position = { s'.indoorPos with ts := m.ts, x := downToCm s'.indoorPos.x, y := downToCm s'.indoorPos.y }
  outside : ¬ (Estim.Box.Covers lv.geometry.boundingBox s'.indoorPos.toXY ∧ m.ts - t0 < ⌊1000 * c.cs.deadReckoningTime⌋) →
    s'.position = Position.default ∧ (ClosesEnough ls c.cs lv ms m → st = .OK ∨ st = .NAVIGATION_ERROR) ∧
    (¬ ClosesEnough ls c.cs lv ms m → st = .NO_SOLUTION)

/-- After a window that gives a place there is a floor in use, from then on. -/
theorem lastFix_used {s : Triang.Sorts} {ls : List Level} {cs : CommonSettings} {ws : List (Int × List RadioMeasurement)} {lv : Level}
    {t0 : Int} {win : List RadioMeasurement} (h : LastFix s ls cs ws lv t0 win) {ds : List (Option Level)}
    (hds : List.Forall₂ (fun w d => WindowFloor ls w.2 d) ws ds) {hist : LevelEst.History}
    (hcnt : Counted (votes (ds.filterMap (Option.map Level.id))) hist) (hm : GoodMap ls) : ∃ k, InUse ls ws k := by
  obtain ⟨p, q, rfl, ⟨⟨-, ds', h1, h2⟩, -⟩, -⟩ := h
  rcases (used_level hm hds hcnt).2 with h | h
  swap
  · exact h
  exfalso
  have hne : (ds.filterMap (Option.map Level.id)) ≠ [] := by
    have hsp : p ++ (t0, win) :: q = (p ++ [(t0, win)]) ++ q := by simp
    rw [hsp] at hds
    obtain ⟨u, v, hu, -, rfl⟩ : ∃ u v, List.Forall₂ (fun w d => WindowFloor ls w.2 d) (p ++ [(t0, win)]) u ∧
        List.Forall₂ (fun w d => WindowFloor ls w.2 d) q v ∧ ds = u ++ v := by
      refine ⟨ds.take (p ++ [(t0, win)]).length, ds.drop (p ++ [(t0, win)]).length, ?_, ?_, (List.take_append_drop _ _).symm⟩
      · have := List.forall₂_take (p ++ [(t0, win)]).length hds
        rwa [List.take_left] at this
      · have := List.forall₂_drop (p ++ [(t0, win)]).length hds
        rwa [List.drop_left] at this
    have := windowFloors_unique hu h1
    subst this
    have := votes_mem _ h2
    intro h0
    rw [List.filterMap_append, List.append_eq_nil_iff] at h0
    rw [h0.1] at this
    cases this
  obtain ⟨u, hu⟩ := Option.isSome_iff_exists.mp (votes_some _ hne)
  have hmem := votes_mem _ hu
  obtain ⟨o, ho, hou⟩ := List.mem_filterMap.mp hmem
  have hcur := hcnt.current
  rw [hu, h] at hcur
  cases o with
  | none => cases hou
  | some l =>
    simp only [Option.map_some, Option.some.injEq] at hou
    exact hm.named l (floor_mem hds l ho) (by rw [hou]; exact hcur.symm)

theorem printed_step {ls : List Level} {c : Cfg} (hc : Client ls c) (hp : PlainFingerprints c.cs)
    (hE : ∀ l, (c.env.triSorts.edges l).Perm l) (hT : ∀ l, (c.env.triSorts.triangles l).Perm l) {g : Garbage}
    {ms : List Measurement} {s : State} (ht : Traced ls c g ms s) (hz : Printed ls c ms s) {m : Measurement} (hts : 0 < m.ts)
    {s' : State} {out : Output} {x : Sensed} {l : Located} (hst : Stepped ls c s m s' out x l) :
    Printed ls c (ms ++ [m]) s' ∧ (Fresh ls c.cs ms m → ∀ lv0 t0 win,
      LastFix c.env.triSorts ls c.cs (closedWindows ls c.cs (ms ++ [m])) lv0 t0 win →
      ∃ lv, InUse ls (closedWindows ls c.cs (ms ++ [m])) lv ∧ Placed ls c ms m lv t0 s' l.status) := by
  obtain ⟨-, h1, h2, -, -, -, h7, ⟨d, h8, h9⟩, -⟩ := sense_parts hst.sense
  obtain ⟨f1, -, f3, -⟩ := locate_frame hst.locate
  have hna : 0 < c.noAction := by have := hp.noAction; rw [hc.parts.noAction]; omega
  have hto : timedOutLevel c x = "" ∨ timedOutLevel c x = x.levelId := by
    rw [timedOut_eq ht.inv hna hst.sense]
    split_ifs
    · exact Or.inl rfl
    · exact Or.inr rfl
  obtain ⟨hb, hcase⟩ := framed_radio hc hp.toWindowed.framed hz.buffered hts h1
  rw [← windows_snoc, ← h2, ← f1, ← hst.state] at hb
  rw [← windows_snoc] at hcase
  rw [hp.barometer] at h9
  unfold LevelEst.calculateLevel at h9
  simp only [Bool.false_eq_true, if_false, Prod.mk.injEq] at h9
  obtain ⟨g1, g2⟩ := h9
  have g2' : s'.level.history = (LevelEst.detectLevelUsingHistory s.level.history d).2 := by
    rw [hst.state, f3, ← g2]
  have e0 : LevelEst.detectLevelUsingHistory s.level.history "" = (s.level.history.current, s.level.history) := by
    simp [LevelEst.detectLevelUsingHistory]
  have hinj : ∀ a ∈ ls, ∀ b ∈ ls, a.id = b.id → a = b := by
    intro a ha b hb' hab
    exact List.inj_on_of_nodup_map hc.map.nodup ha hb' hab
  -- the windows and the averages
  have hclosed : (x.radio = [] ∧ ¬ Closes ls c.cs ms m ∧ closedWindows ls c.cs (ms ++ [m]) = closedWindows ls c.cs ms) ∨
      (∃ win, ClosesWith ls c.cs ms m m.ts win ∧ HandedOut win x.radio ∧
        closedWindows ls c.cs (ms ++ [m]) = closedWindows ls c.cs ms ++ [(m.ts, win)]) := by
    rcases hcase with ⟨hr, hncl, -⟩ | ⟨hclose, dd, win, hdd, had, -, hcl, -, hho, -⟩
    · refine Or.inl ⟨hr, hncl, ?_⟩
      have hncl' : ¬ Closes ls c.cs ms m := hncl
      rw [closedWindows_snoc, if_neg hncl']; simp
    · have hcloses : Closes ls c.cs ms m := ⟨⟨dd, hdd, had⟩, hclose⟩
      refine Or.inr ⟨win, ⟨hcloses, hcl⟩, hho, ?_⟩
      rw [closedWindows_snoc, if_pos hcloses, hcl]; rfl
  -- the votes
  have hvotes : (∃ ds, List.Forall₂ (fun w d => WindowFloor ls w.2 d) (closedWindows ls c.cs (ms ++ [m])) ds ∧
      Counted (votes (ds.filterMap (Option.map Level.id))) s'.level.history) ∧ x.levelId = s'.level.history.current := by
    obtain ⟨ds, hds, hcnt⟩ := hz.voted
    rcases hclosed with ⟨hr, -, hws⟩ | ⟨win, -, hho, hws⟩
    · rw [hr, detect_nothing hc] at h8
      cases h8
      rw [e0] at g1 g2'
      rw [hws, g2', ← g1]
      exact ⟨⟨ds, hds, hcnt⟩, rfl⟩
    · obtain ⟨o, ho, hdet⟩ := knn_detected hc hp hho
      rw [hdet] at h8
      cases h8
      rw [hws]
      have hvoted : List.Forall₂ (fun w d => WindowFloor ls w.2 d) (closedWindows ls c.cs ms ++ [(m.ts, win)]) (ds ++ [o]) :=
        List.rel_append hds (List.Forall₂.cons ho List.Forall₂.nil)
      cases o with
      | none =>
        simp only [Option.map_none, Option.getD_none] at g1 g2'
        rw [e0] at g1 g2'
        rw [g2', ← g1]
        refine ⟨⟨ds ++ [none], hvoted, ?_⟩, rfl⟩
        simpa using hcnt
      | some fl =>
        simp only [Option.map_some, Option.getD_some] at g1 g2'
        have hflm : fl ∈ ls := by obtain ⟨p, q, e, -⟩ := ho; rw [e]; simp
        obtain ⟨hsee, hsee1⟩ := counted_see hcnt (hc.map.named fl hflm)
        rw [← g2'] at hsee hsee1
        rw [← votes_snoc] at hsee
        refine ⟨⟨ds ++ [some fl], hvoted, ?_⟩, by rw [← g1, hsee1]⟩
        simpa using hsee
  obtain ⟨⟨ds, hds, hcnt⟩, k5⟩ := hvotes
  obtain ⟨hin, hinor⟩ := used_level hc.map hds hcnt
  -- the branch for a level
  have hlevel : ∀ lv ∈ ls, timedOutLevel c x = lv.id → ∃ i p ph, AtLevel ls c s x lv i p ph := by
    intro lv hlv h
    obtain ⟨lv', i, p, ph, ha⟩ := locate_level hc ht.inv hst.sensed ⟨lv, hlv, h.symm⟩
    have : lv' = lv := hinj _ ha.mem _ hlv (by rw [← h]; exact ha.id)
    subst this
    exact ⟨i, p, ph, ha⟩
  have htl : timedOutLevel c x = "" ∨ ∃ lv, InUse ls (closedWindows ls c.cs (ms ++ [m])) lv ∧ timedOutLevel c x = lv.id := by
    rcases hto with h | h
    · exact Or.inl h
    · rw [h, k5]
      rcases hinor with h' | ⟨lv, h'⟩
      · exact Or.inl h'
      · exact Or.inr ⟨lv, h', ((hin lv).mp h').2⟩
  have hnow : timedOutLevel c x = "" → s'.post = s.post ∧ s'.indoorPos = s.indoorPos ∧ (Gnss s.position → Gnss s'.position) := by
    intro h
    obtain ⟨-, a2, a3, -, a5⟩ := locate_nowhere hc hst.locate h
    rw [hst.state]
    refine ⟨a2, a3, ?_⟩
    rcases a5 with ⟨-, a, -⟩ | ⟨-, a, -⟩ <;> rw [a]
    · exact fun _ => (gnss_sense ht.gnss hst.sense).1
    · exact fun h => h
  -- what the estimator answers goes on
  have hlev : ∀ {lv i p ph}, AtLevel ls c s x lv i p ph → (i.2.1 = s.indoorPos ∨ i.2.1.isEmpty = false) → i.2.2 = i.2.1 →
      s'.indoorPos = i.2.1 ∧ s'.post.indoorPos = i.2.1 ∧ l.status = i.1 ∧
      (i.2.1.isEmpty = true → s'.position = Position.default) ∧
      (i.2.1.isEmpty = false →
          (Estim.Box.Covers lv.geometry.boundingBox i.2.1.toXY ∧ m.ts - i.2.1.ts < ⌊1000 * c.cs.deadReckoningTime⌋ →
            s'.position = { i.2.1 with ts := m.ts, x := downToCm i.2.1.x, y := downToCm i.2.1.y }) ∧
          (¬ (Estim.Box.Covers lv.geometry.boundingBox i.2.1.toXY ∧ m.ts - i.2.1.ts < ⌊1000 * c.cs.deadReckoningTime⌋) →
            s'.position = Position.default)) := by
    intro lv i p ph ha hi h22
    have hl := ha.located
    rw [hst.locate] at hl
    obtain ⟨j1, j2⟩ := plain_fused hp.toWindowed s.post x.pre.currentTs i.2.1 x.outdoorPos i.1
    have j1' : (Post.fusePositions c.cs s.post x.pre.currentTs i.2.1 x.outdoorPos i.1).2.indoorPos = i.2.1 := by
      rw [j1]
      rcases hi with hi | hi
      · rw [hi, hz.same]; simp
      · rw [hi]; simp
    obtain ⟨q1, q2, q3⟩ := framed_processed hp.toWindowed.framed hp.smoothing _ _ _ _ _ _ ha.processed
    rw [j2, j1'] at q2 q3
    rw [j1'] at q1
    rw [h7] at q3
    have es : s'.position = p.1 ∧ s'.post = p.2 ∧ s'.indoorPos = i.2.2 ∧ l.status = i.1 := by
      rw [hst.state]
      cases hl
      exact ⟨rfl, rfl, rfl, rfl⟩
    rw [es.1, es.2.1, es.2.2.1, h22]
    exact ⟨rfl, q1, es.2.2.2, q2, q3⟩
  -- whether a place is computed
  by_cases hw : ∃ lv win, ClosesWith ls c.cs ms m m.ts win ∧ HandedOut win x.radio ∧
      closedWindows ls c.cs (ms ++ [m]) = closedWindows ls c.cs ms ++ [(m.ts, win)] ∧
      Fixes c.env.triSorts ls c.cs (closedWindows ls c.cs ms) (m.ts, win) lv
  · obtain ⟨lv, win, hcw, hho, hws, hfx⟩ := hw
    have hfx' := hfx
    obtain ⟨huse, hen, hmesh⟩ := hfx'
    rw [← hws] at huse
    have hf : Fresh ls c.cs ms m :=
      ⟨ms, m, [], rfl, hcw.1.1, by simp, by have := hp.noSignal; omega⟩
    obtain ⟨hlv, hcur⟩ := (hin lv).mp huse
    have hlvt : timedOutLevel c x = lv.id := by
      rw [fresh_level hc hp.noAction ht hf hst.sense, k5, hcur]
    obtain ⟨i, p, ph, ha⟩ := hlevel lv hlv hlvt
    obtain ⟨i1, i2, i3⟩ := knn_located_on hlv hc hp hE hT ha.indoor hho hen hmesh
    rw [h7] at i3
    obtain ⟨p1, p2, p3, p4, p5, -⟩ := fixAt_parts i3
    obtain ⟨r1, r2, r3, -, r5⟩ := hlev ha (Or.inr p1) i2
    have hlast := lastFix_now hfx
    rw [← hws] at hlast
    refine ⟨⟨hb, ⟨ds, hds, hcnt⟩, by rw [r1, r2], Or.inr ⟨lv, m.ts, win, hlast, by rw [r1]; exact i3⟩⟩, fun _ lv0 t0 w hlw => ?_⟩
    obtain ⟨rfl, rfl, rfl⟩ := lastFix_unique hc.map hlast hlw
    refine ⟨lv, huse, ⟨?_, ?_⟩⟩
    · rintro ⟨hbox, hage⟩
      rw [r1] at hbox ⊢
      exact (r5 p1).1 ⟨hbox, by rw [p2]; exact hage⟩
    · intro hbad
      rw [r1] at hbad
      exact ⟨(r5 p1).2 (by rw [p2]; exact hbad), fun _ => Or.inl (by rw [r3, i1]), fun h => absurd ⟨_, _, hcw, hen⟩ h⟩
  · have hkeep : ∀ lv, InUse ls (closedWindows ls c.cs (ms ++ [m])) lv →
        (x.radio = [] ∨ ∃ win, HandedOut win x.radio ∧ ¬ (Enough lv c.cs win ∧ MeshedOn c.env.triSorts ls c.cs lv)) := by
      intro lv huse
      rcases hclosed with ⟨hr, -⟩ | ⟨win, hcw, hho, hws⟩
      · exact Or.inl hr
      · exact Or.inr ⟨win, hho, fun h => hw ⟨lv, win, hcw, hho, hws, by rw [hws] at huse; exact huse, h.1, h.2⟩⟩
    have hat : ∀ {lv i p ph}, InUse ls (closedWindows ls c.cs (ms ++ [m])) lv → AtLevel ls c s x lv i p ph →
        s'.indoorPos = s.indoorPos ∧ s'.post.indoorPos = s.indoorPos ∧
        (ClosesEnough ls c.cs lv ms m → l.status = .OK ∨ l.status = .NAVIGATION_ERROR) ∧
        (¬ ClosesEnough ls c.cs lv ms m → l.status = .NO_SOLUTION) ∧
      (s.indoorPos.isEmpty = true → s'.position = Position.default) ∧
      (s.indoorPos.isEmpty = false →
          (Estim.Box.Covers lv.geometry.boundingBox s.indoorPos.toXY ∧ m.ts - s.indoorPos.ts < ⌊1000 * c.cs.deadReckoningTime⌋ →
            s'.position = { s.indoorPos with ts := m.ts, x := downToCm s.indoorPos.x, y := downToCm s.indoorPos.y }) ∧
          (¬ (Estim.Box.Covers lv.geometry.boundingBox s.indoorPos.toXY ∧ m.ts - s.indoorPos.ts < ⌊1000 * c.cs.deadReckoningTime⌋) →
            s'.position = Position.default)) := by
      intro lv i p ph huse ha
      obtain ⟨a1, a2, a3, a4⟩ := knn_kept_on huse.1 hc hp ha.indoor (hkeep lv huse)
      obtain ⟨r1, r2, r3, r4, r5⟩ := hlev ha (Or.inl a1) (by rw [a1, a2])
      rw [a1] at r1 r2 r4 r5
      refine ⟨r1, r2, ?_, ?_, r4, r5⟩
      · rintro ⟨t, w, hcw, hen⟩
        rcases hclosed with ⟨-, hncl, -⟩ | ⟨win, hcw', hho, -⟩
        · exact absurd hcw.1 hncl
        · have := hcw.2
          rw [hcw'.2] at this
          cases this
          exact Or.inr (by rw [r3]; exact (a4 _ hho).1 hen)
      · intro hne
        rw [r3]
        rcases hclosed with ⟨hr, -⟩ | ⟨win, hcw', hho, -⟩
        · exact a3 hr
        · exact (a4 win hho).2 fun hen => hne ⟨_, _, hcw', hen⟩
    have hsame : s'.indoorPos = s.indoorPos ∧ s'.post.indoorPos = s.indoorPos := by
      rcases htl with h | ⟨lv, huse, h⟩
      · obtain ⟨n1, n2, -⟩ := hnow h
        rw [n1, n2, hz.same]
        exact ⟨rfl, rfl⟩
      · obtain ⟨i, p, ph, ha⟩ := hlevel lv huse.1 h
        obtain ⟨r1, r2, -⟩ := hat huse ha
        exact ⟨r1, r2⟩
    have hsnocL : ∀ lv t0 w, LastFix c.env.triSorts ls c.cs (closedWindows ls c.cs ms) lv t0 w →
        LastFix c.env.triSorts ls c.cs (closedWindows ls c.cs (ms ++ [m])) lv t0 w := by
      intro lv t0 w h
      rcases hclosed with ⟨-, -, hws⟩ | ⟨win, hcw, hho, hws⟩
      · rw [hws]; exact h
      · rw [hws]
        exact lastFix_still h fun k hk => hw ⟨k, win, hcw, hho, hws, hk⟩
    have hsnocN : NoFix c.env.triSorts ls c.cs (closedWindows ls c.cs ms) →
        NoFix c.env.triSorts ls c.cs (closedWindows ls c.cs (ms ++ [m])) := by
      intro h
      rcases hclosed with ⟨-, -, hws⟩ | ⟨win, hcw, hho, hws⟩
      · rw [hws]; exact h
      · rw [hws]
        exact noFix_still h fun k hk => hw ⟨k, win, hcw, hho, hws, hk⟩
    refine ⟨⟨hb, ⟨ds, hds, hcnt⟩, by rw [hsame.1, hsame.2], ?_⟩, fun hf lv0 t0 w hlw => ?_⟩
    · rcases hz.place with ⟨z1, z2, z3⟩ | ⟨lv, t0, w, z1, z2⟩
      · refine Or.inl ⟨hsnocN z1, by rw [hsame.1, z2], ?_⟩
        rcases htl with h | ⟨lv, huse, h⟩
        · exact (hnow h).2.2 z3
        · obtain ⟨i, p, ph, ha⟩ := hlevel lv huse.1 h
          obtain ⟨-, -, -, -, r4, -⟩ := hat huse ha
          rw [r4 (by rw [z2]; rfl)]
          intro h; cases h
      · exact Or.inr ⟨lv, t0, w, hsnocL _ _ _ z1, by rw [hsame.1]; exact z2⟩
    · have hfl := fresh_level hc hp.noAction ht hf hst.sense
      have hfix : FixAt c lv0 t0 w s.indoorPos := by
        rcases hz.place with ⟨z1, -⟩ | ⟨lv, t1, w1, z1, z2⟩
        · exact absurd hlw (fix_excl (hsnocN z1))
        · obtain ⟨rfl, rfl, rfl⟩ := lastFix_unique hc.map (hsnocL _ _ _ z1) hlw
          exact z2
      obtain ⟨lv, huse⟩ := lastFix_used hlw hds hcnt hc.map
      obtain ⟨i, p, ph, ha⟩ := hlevel lv huse.1 (by rw [hfl, k5, ((hin lv).mp huse).2])
      obtain ⟨-, -, r3, r3', -, r5⟩ := hat huse ha
      obtain ⟨p1, p2, -⟩ := fixAt_parts hfix
      refine ⟨lv, huse, ⟨?_, ?_⟩⟩
      · rintro ⟨hbox, hage⟩
        rw [hsame.1] at hbox ⊢
        exact (r5 p1).1 ⟨hbox, by rw [p2]; exact hage⟩
      · intro hbad
        rw [hsame.1] at hbad
        exact ⟨(r5 p1).2 (by rw [p2]; exact hbad), r3, r3'⟩

theorem printed_runs {ls : List Level} {c : Cfg} (hc : Client ls c) (hp : PlainFingerprints c.cs)
    (hE : ∀ l, (c.env.triSorts.edges l).Perm l) (hT : ∀ l, (c.env.triSorts.triangles l).Perm l) (g : Garbage) (ms : List Measurement)
    (hts : ∀ m ∈ ms, 0 < m.ts) {s : State} {outs : List (Output × DebugState)} (h : runs c (init c g) ms = .ok (s, outs)) :
    Printed ls c ms s := by
  induction ms using List.reverseRecOn generalizing s outs with
  | nil => cases h; exact printed_init ls c hp g
  | append_singleton ms m ih =>
    obtain ⟨s1, outs1, r, h1, h2, -⟩ := runs_snoc h
    have ht := traced_runs hc g ms h1
    obtain ⟨-, x, l, hst, -⟩ := traced_step hc ht h2
    exact (printed_step hc hp hE hT ht (ih (fun m hm => hts m (by simp [hm])) h1) (hts m (by simp)) hst).1

/-- **C119.** A client with any number of floors and plain settings for fingerprints, after any history of measurements with
positive times, gets a measurement while the last admitted signal is younger than the no-signal threshold, and some closed
window gave a place.  Take the last such window: the floor then in use was `lv0`, and the client holds the place of the
window's averages on `lv0`.  Let `lv` be the floor now in use.  If the place lies in the bounding box of `lv` and the window is
younger than the dead reckoning time, the answer is OK and shows the place (rounded down to centimetres) on `lv0`, with the
precision 1.  Otherwise the answer has no place; its status is NAVIGATION_ERROR if this measurement closed a window with enough
transmitters of `lv`, and NO_SOLUTION if not. -/
theorem C119_place {ls : List Level} {c : Cfg} (hc : Client ls c) (hp : PlainFingerprints c.cs)
    (hE : ∀ l, (c.env.triSorts.edges l).Perm l) (hT : ∀ l, (c.env.triSorts.triangles l).Perm l) (g : Garbage)
    (batches : List (List Measurement))
    {s : State} {outs : List (Output × DebugState)} (h : navigateAll c (init c g) batches = .ok (s, outs)) (m : Measurement)
    (hts : ∀ e ∈ taken batches ++ [m], 0 < e.ts) (hf : Fresh ls c.cs (taken batches) m) {lv0 : Level} {t0 : Int}
    {win : List RadioMeasurement}
    (hw : LastFix c.env.triSorts ls c.cs (closedWindows ls c.cs (taken batches ++ [m])) lv0 t0 win) :
    ∃ s' out dbg avg p lv, navigate c s [m] = .ok (s', [(out, dbg)]) ∧
      InUse ls (closedWindows ls c.cs (taken batches ++ [m])) lv ∧ MapAverages lv0 win avg ∧
      PlaceOf c.env.triSorts lv0 c.cs avg p ∧ dbg.indoorPosition = p ∧
      (Estim.Box.Covers lv.geometry.boundingBox p ∧ m.ts - t0 < ⌊1000 * c.cs.deadReckoningTime⌋ →
        out.status = .OK ∧ out.posLevel = lv0.id ∧ out.provider = some .INDOOR ∧
        (⟨out.posLatitude, out.posLongitude⟩ : Geo.GeoPoint) = Geo.localToGps ⟨downToCm p.x, downToCm p.y⟩ lv0.bindingPoint ∧
        out.posR = some 1) ∧
      (¬ (Estim.Box.Covers lv.geometry.boundingBox p ∧ m.ts - t0 < ⌊1000 * c.cs.deadReckoningTime⌋) →
        Blank out ∧
        (ClosesEnough ls c.cs lv (taken batches) m → out.status = .NAVIGATION_ERROR) ∧
        (¬ ClosesEnough ls c.cs lv (taken batches) m → out.status = .NO_SOLUTION)) := by
  have ht := history_traced hc h
  rw [navigateAll_eq] at h
  have hz := printed_runs hc hp hE hT g _ (fun e he => hts e (by simp [he])) h
  obtain ⟨s', out, dbg, x, l, h1, hst, hdbg⟩ := one_parts hc ht.inv m
  obtain ⟨hz', han⟩ := printed_step hc hp hE hT ht hz (hts m (by simp)) hst
  have hfix : FixAt c lv0 t0 win s'.indoorPos := by
    rcases hz'.place with ⟨z1, -⟩ | ⟨lv, t1, w1, z1, z2⟩
    · exact absurd hw (fix_excl z1)
    · obtain ⟨rfl, rfl, rfl⟩ := lastFix_unique hc.map z1 hw
      exact z2
  obtain ⟨q1, q2, q3, q4, q5, avg, q6, q7⟩ := fixAt_parts hfix
  obtain ⟨lv, huse, han⟩ := han hf lv0 t0 win hw
  have hlv0 : lv0 ∈ ls := by
    obtain ⟨_, _, -, hfx, -⟩ := hw
    exact hfx.1.1
  obtain ⟨hsh, -, herr⟩ := stepped_shows hc hst
  refine ⟨s', out, dbg, avg, ⟨s'.indoorPos.x, s'.indoorPos.y⟩, lv, h1, huse, q6, q7, ?_, ?_, ?_⟩
  · rw [hdbg]
    simp [debugState, hz'.same]
  · intro hbox
    have hpos := han.inside hbox
    rcases hsh with ⟨he, -⟩ | ⟨he, hok, lv', hlv', hid, e1, e2, e3, e4, e5⟩
    · rw [hpos] at he
      dsimp only at he
      rw [q1] at he
      cases he
    have : lv' = lv0 := by
      apply List.inj_on_of_nodup_map hc.map.nodup hlv' hlv0
      rw [hid, hpos]
      exact q3
    subst this
    refine ⟨hok, ?_, ?_, ?_, ?_⟩
    · rw [e1, hpos]; exact q3
    · rw [e5, hpos, Option.some.injEq]; exact q5
    · rw [e2, e3, hpos]; rfl
    · rw [e4, hpos, Option.some.injEq]; exact q4
  · intro hbad
    obtain ⟨hpos, hs1, hs2⟩ := han.outside hbad
    have hemp : s'.position.isEmpty = true := by rw [hpos]; rfl
    rcases hsh with ⟨-, -, hb⟩ | ⟨he, -⟩
    swap
    · rw [hemp] at he; cases he
    have hst' := herr hemp
    refine ⟨hb, fun h => ?_, fun h => ?_⟩
    · rcases hs1 h with h | h <;> rw [hst', h] <;> rfl
    · rw [hst', hs2 h]; rfl

/-- **C119.** Before the first such window no place comes from the fingerprints: an answer with a place shows the satellite
receiver's one. -/
theorem C119_before {ls : List Level} {c : Cfg} (hc : Client ls c) (hp : PlainFingerprints c.cs)
    (hE : ∀ l, (c.env.triSorts.edges l).Perm l) (hT : ∀ l, (c.env.triSorts.triangles l).Perm l) (g : Garbage)
    (batches : List (List Measurement)) {s : State} {outs : List (Output × DebugState)}
    (h : navigateAll c (init c g) batches = .ok (s, outs)) (hts : ∀ e ∈ taken batches, 0 < e.ts)
    (hw : NoFix c.env.triSorts ls c.cs (closedWindows ls c.cs (taken batches))) :
    ∀ o ∈ outs.getLast?, o.1.status = .OK → o.1.provider = some .GNSS := by
  intro o ho hok
  rw [navigateAll_eq] at h
  have hz := printed_runs hc hp hE hT g _ hts h
  rcases last_shows hc (inv_init hc g) _ h ho with ⟨-, hne, -⟩ | ⟨he, -, lv', -, -, -, -, -, -, e5⟩
  · exact absurd hok hne
  · rcases hz.place with ⟨-, -, z3⟩ | ⟨_, _, _, z1, -⟩
    · rw [e5, z3 he]
    · exact absurd z1 (fix_excl hw)

/-- **C119.** One of the two cases always holds, the window, its floor and the floor in use are unique. -/
theorem C119_cases {ls : List Level} (hm : GoodMap ls) (s : Triang.Sorts) (cs : CommonSettings) (ws : List (Int × List RadioMeasurement)) :
    (NoFix s ls cs ws ∨ ∃ lv t win, LastFix s ls cs ws lv t win) ∧
    (∀ lv t win k t' win', LastFix s ls cs ws lv t win → LastFix s ls cs ws k t' win' → lv = k ∧ t = t' ∧ win = win') ∧
    (∀ a b, InUse ls ws a → InUse ls ws b → a = b) := by
  refine ⟨?_, fun _ _ _ _ _ _ h h' => lastFix_unique hm h h', fun a b => inUse_unique hm⟩
  induction ws using List.reverseRecOn with
  | nil => exact Or.inl fun a w b h => by simp at h
  | append_singleton ws w ih =>
    by_cases hk : ∃ k, Fixes s ls cs ws w k
    · obtain ⟨k, hk⟩ := hk
      exact Or.inr ⟨k, w.1, w.2, lastFix_now hk⟩
    · push Not at hk
      rcases ih with ih | ⟨lv, t, win, ih⟩
      · exact Or.inl (noFix_still ih hk)
      · exact Or.inr ⟨lv, t, win, lastFix_still ih hk⟩

end Verif.Prints
