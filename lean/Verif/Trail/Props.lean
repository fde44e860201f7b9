import Verif.Trail.Spec
import Verif.Track.Props
import Verif.Nav.KnnProps

/-!
# Property theorems for C132: what a client with fingerprints on one floor and the default smoothing answers
-/

namespace Verif.Trail

open Verif.Levels Verif.Nav Verif.Floors
open Verif.Geo (XYPoint)
open Verif.Knn (Result)
open Verif.Track

theorem fixesOf_nil (s : Triang.Sorts) (lv : Level) (cs : CommonSettings) : FixesOf s lv cs [] [] := ⟨[], List.Forall₂.nil, rfl⟩

theorem fixesOf_snoc {s : Triang.Sorts} {lv : Level} {cs : CommonSettings} {ws : List (Int × List RadioMeasurement)} {fs : List Fix}
    (h : FixesOf s lv cs ws fs) {w : Int × List RadioMeasurement} {o : Option Fix} (ho : WindowFix s lv cs w o) :
    FixesOf s lv cs (ws ++ [w]) (fs ++ o.toList) := by
  obtain ⟨os, h1, rfl⟩ := h
  refine ⟨os ++ [o], List.rel_append h1 (List.Forall₂.cons ho List.Forall₂.nil), ?_⟩
  rw [List.filterMap_append]
  cases o <;> rfl

/-- What the state of the client holds after the measurements `ms`. -/
structure Walked (lv : Level) (c : Cfg) (ms : List Measurement) (s : State) : Prop where
  buffered : Buffered c.cs (windows [lv] c.cs ms) s.pre.buffer
  known : s.level.history.isInitialized = true → s.level.history.current = lv.id
  unknown : s.level.history.isInitialized = false → s.level.history.current = ""
  same : s.indoorPos = s.post.indoorPos
  before : NoWindow [lv] c.cs (Locates c.env.triSorts lv c.cs) ms → s.indoorPos = Position.default ∧ Gnss s.position
  after : ∀ t0 win, LastWindow [lv] c.cs (Locates c.env.triSorts lv c.cs) ms t0 win →
    s.level.history.isInitialized = true ∧ Nav.FixAt c lv t0 win s.indoorPos
  labelled : s.indoorPos.isEmpty = false → s.indoorPos.levelId = lv.id ∧ s.indoorPos.provider = .INDOOR
  opened : s.indoorPos.isEmpty = false → ∃ o, (windows [lv] c.cs ms).opened = some o ∧ s.indoorPos.ts ≤ o
  trail : ∃ fs, FixesOf c.env.triSorts lv c.cs (closedWindows [lv] c.cs ms) fs ∧ Follows c.cs (c.env.allowed lv) lv fs s.post ∧
    (∀ f ∈ fs.getLast?, s.indoorPos.isEmpty = false ∧ f.time ≤ s.indoorPos.ts) ∧
    (s.indoorPos.isEmpty = false → Estim.Box.Covers lv.geometry.boundingBox s.indoorPos.toXY →
      fs.getLast? = some ⟨s.indoorPos.ts, s.indoorPos.toXY⟩)

theorem walked_init (lv : Level) (c : Cfg) (hp : SmoothFingerprints c.cs) (g : Garbage) : Walked lv c [] (init c g) := by
  have hs := span_pos hp.toWindowed
  constructor
  · constructor
    · rfl
    · exact fun _ => ⟨rfl, rfl⟩
    · intro t h; cases h
    · exact hs
  · intro h; cases h
  · exact fun _ => rfl
  · rfl
  · exact fun _ => ⟨rfl, fun h => (by cases h)⟩
  · rintro t0 win ⟨a, e, b, h, -⟩
    simp at h
  · intro h; cases h
  · intro h; cases h
  · exact ⟨[], fixesOf_nil _ _ _, follows_init c.cs hp.filter _ lv, (fun f hf => by cases hf), (fun h => by cases h)⟩

/-- What the client answers from, after a recent signal. -/
structure Placed (lv : Level) (c : Cfg) (ms : List Measurement) (m : Measurement) (s' : State) (st : NavigationStatus) : Prop where
  inside : ∀ t0 win, LastWindow [lv] c.cs (Locates c.env.triSorts lv c.cs) (ms ++ [m]) t0 win →
    Estim.Box.Covers lv.geometry.boundingBox s'.indoorPos.toXY → m.ts - t0 < ⌊1000 * c.cs.deadReckoningTime⌋ →
    ∃ fs k, FixesOf c.env.triSorts lv c.cs (closedWindows [lv] c.cs (ms ++ [m])) fs ∧
      fs.getLast? = some ⟨t0, s'.indoorPos.toXY⟩ ∧ track c.cs (c.env.allowed lv) fs = some k ∧
      s'.position.isEmpty = false ∧ s'.position.levelId = lv.id ∧ s'.position.provider = .INDOOR ∧
      s'.position.deviationM = s'.indoorPos.deviationM ∧ s'.position.toXY = shown lv.geometry.boundingBox k.place
  outside : ∀ t0 win, LastWindow [lv] c.cs (Locates c.env.triSorts lv c.cs) (ms ++ [m]) t0 win →
    ¬ (Estim.Box.Covers lv.geometry.boundingBox s'.indoorPos.toXY ∧ m.ts - t0 < ⌊1000 * c.cs.deadReckoningTime⌋) →
    s'.position = Position.default ∧
    ((∃ t w, ClosesWith [lv] c.cs ms m t w ∧ Locates c.env.triSorts lv c.cs w) → st = .OK) ∧
    ((¬ ∃ t w, ClosesWith [lv] c.cs ms m t w ∧ Locates c.env.triSorts lv c.cs w) → st = .NO_SOLUTION)

theorem last_time {cs : CommonSettings} {allowed : ℝ → ℝ → Prop} {fs : List Fix} {k : Motion} (h : track cs allowed fs = some k) :
    ∃ f, fs.getLast? = some f ∧ k.time = f.time := by
  cases fs using List.reverseRecOn with
  | nil => cases h
  | append_singleton fs f _ => exact ⟨f, by simp, track_time _ _ _ _ h⟩

theorem follows_fuse {cs : CommonSettings} {allowed : ℝ → ℝ → Prop} {lv : Level} {fs : List Fix} {s : Post.PostState}
    (h : Follows cs allowed lv fs s) (ts : Int) (a b : Position) (st : NavigationStatus) :
    Follows cs allowed lv fs (Post.fusePositions cs s ts a b st).2 := by
  have e1 : (Post.fusePositions cs s ts a b st).2.smoother = s.smoother := by
    simp only [Post.fusePositions, Post.fillOutdoor, Post.fillIndoor]
    split_ifs <;> rfl
  have e2 : (Post.fusePositions cs s ts a b st).2.lastOut = s.lastOut := by
    simp only [Post.fusePositions, Post.fillOutdoor, Post.fillIndoor]
    split_ifs <;> rfl
  exact ⟨by rw [e1]; exact h.smoother, by rw [e2]; exact h.level⟩

theorem opened_snoc {lv : Level} {cs : CommonSettings} {ms : List Measurement} {m : Measurement} {o : Int}
    (ho : (windows [lv] cs ms).opened = some o) : ∃ o', (windows [lv] cs (ms ++ [m])).opened = some o' ∧
      (¬ Closes [lv] cs ms m → o' = o) ∧ (Closes [lv] cs ms m → o' = m.ts) := by
  rw [windows_snoc]
  by_cases hh : Heard [lv] cs m
  · obtain ⟨d', hd', ha'⟩ := hh
    obtain ⟨md, mts⟩ := m
    dsimp only at hd'
    subst hd'
    rw [take_heard _ ha']
    unfold Windows.hear
    dsimp only
    split_ifs with hcl
    · exact ⟨_, rfl, fun h => absurd ⟨⟨d', rfl, ha'⟩, hcl⟩ h, fun _ => rfl⟩
    · exact ⟨_, rfl, fun _ => by rw [ho]; rfl, fun h => absurd h.2 hcl⟩
  · rw [take_not_heard _ hh]
    exact ⟨o, ho, fun _ => rfl, fun h => absurd h.1 hh⟩

theorem opened_closes {lv : Level} {cs : CommonSettings} {ms : List Measurement} {m : Measurement} (h : Closes [lv] cs ms m) :
    (windows [lv] cs (ms ++ [m])).opened = some m.ts := by
  obtain ⟨⟨d', hd', ha'⟩, hcl⟩ := h
  rw [windows_snoc]
  obtain ⟨md, mts⟩ := m
  dsimp only at hd' hcl ⊢
  subst hd'
  rw [take_heard _ ha']
  unfold Windows.hear
  dsimp only
  rw [if_pos hcl]

theorem walked_step {lv : Level} {c : Cfg} (hc : Client [lv] c) (hp : SmoothFingerprints c.cs)
    (hE : ∀ l, (c.env.triSorts.edges l).Perm l) (hT : ∀ l, (c.env.triSorts.triangles l).Perm l) {g : Garbage}
    {ms : List Measurement} {s : State} (ht : Traced [lv] c g ms s) (hz : Walked lv c ms s) {m : Measurement} (hts : 0 < m.ts)
    {s' : State} {out : Output} {x : Sensed} {l : Located} (hst : Stepped [lv] c s m s' out x l) :
    Walked lv c (ms ++ [m]) s' ∧ (Fresh [lv] c.cs ms m → Placed lv c ms m s' l.status) := by
  obtain ⟨-, h1, h2, -, -, -, h7, ⟨d, h8, h9⟩, -⟩ := sense_parts hst.sense
  obtain ⟨f1, -, f3, -⟩ := locate_frame hst.locate
  have hid : lv.id ≠ "" := hc.map.named lv (by simp)
  have hna : 0 < c.noAction := by have := hp.noAction; rw [hc.parts.noAction]; omega
  have hto : timedOutLevel c x = "" ∨ timedOutLevel c x = x.levelId := by
    rw [timedOut_eq ht.inv hna hst.sense]
    split_ifs
    · exact Or.inl rfl
    · exact Or.inr rfl
  obtain ⟨hb, hcase⟩ := framed_radio hc hp.toWindowed.framed hz.buffered hts h1
  rw [← windows_snoc, ← h2, ← f1, ← hst.state] at hb
  rw [← windows_snoc] at hcase
  rw [hp.barometer] at h9
  unfold LevelEst.calculateLevel at h9
  simp only [Bool.false_eq_true, if_false, Prod.mk.injEq] at h9
  obtain ⟨g1, g2⟩ := h9
  have g2' : s'.level.history = (LevelEst.detectLevelUsingHistory s.level.history d).2 := by
    rw [hst.state, f3, ← g2]
  obtain ⟨hd, hdm⟩ := knn_level hc hp.toByFingerprints x.radio h8
  -- the history after the call
  have hhist : (s'.level.history.isInitialized = true → s'.level.history.current = lv.id) ∧
      (s'.level.history.isInitialized = false → s'.level.history.current = "") ∧
      (s.level.history.isInitialized = true → s'.level.history.isInitialized = true) ∧
      (d = lv.id → s'.level.history.isInitialized = true) ∧ x.levelId = s'.level.history.current := by
    rw [g2', ← g1]
    rcases hd with rfl | rfl
    · have e0 : LevelEst.detectLevelUsingHistory s.level.history "" = (s.level.history.current, s.level.history) := by
        simp [LevelEst.detectLevelUsingHistory]
      rw [e0]
      exact ⟨hz.known, hz.unknown, fun h => h, fun h => absurd h.symm hid, rfl⟩
    · obtain ⟨e1, e2, e3⟩ := history_same (h := s.level.history) hid hz.known
      rw [e1, e2, e3]
      exact ⟨fun _ => rfl, fun h => (by cases h), fun _ => rfl, fun _ => rfl, rfl⟩
  obtain ⟨k1, k2, k3, k4, k5⟩ := hhist
  -- the branch for a level
  have hlevel : timedOutLevel c x = lv.id → ∃ i p ph, AtLevel [lv] c s x lv i p ph := by
    intro h
    obtain ⟨lv', i, p, ph, ha⟩ := locate_level hc ht.inv hst.sensed ⟨lv, by simp, h.symm⟩
    have : lv' = lv := by simpa using ha.mem
    subst this
    exact ⟨i, p, ph, ha⟩
  have htl : timedOutLevel c x = "" ∨ timedOutLevel c x = lv.id := by
    rcases hto with h | h
    · exact Or.inl h
    · rw [h, k5]
      cases hi : s'.level.history.isInitialized with
      | true => exact Or.inr (k1 hi)
      | false => exact Or.inl (k2 hi)
  have hnow : timedOutLevel c x = "" → s'.post = s.post ∧ s'.indoorPos = s.indoorPos ∧ (Gnss s.position → Gnss s'.position) := by
    intro h
    obtain ⟨-, a2, a3, -, a5⟩ := locate_nowhere hc hst.locate h
    rw [hst.state]
    refine ⟨a2, a3, ?_⟩
    rcases a5 with ⟨-, a, -⟩ | ⟨-, a, -⟩ <;> rw [a]
    · exact fun _ => (gnss_sense ht.gnss hst.sense).1
    · exact fun h => h
  -- what the estimator answers goes on
  have hlev : ∀ {i p ph}, AtLevel [lv] c s x lv i p ph → (i.2.1 = s.indoorPos ∨ i.2.1.isEmpty = false) → i.2.2 = i.2.1 →
      (i.2.1.isEmpty = false → i.2.1.levelId = lv.id ∧ i.2.1.provider = .INDOOR) →
      ∀ fs, Follows c.cs (c.env.allowed lv) lv fs s.post →
      (∀ k, track c.cs (c.env.allowed lv) fs = some k → k.time ≤ i.2.1.ts) →
      s'.indoorPos = i.2.1 ∧ s'.post.indoorPos = i.2.1 ∧ l.status = i.1 ∧
      (i.2.1.isEmpty = false ∧ Estim.Box.Covers lv.geometry.boundingBox i.2.1.toXY ∧ m.ts - i.2.1.ts < ⌊1000 * c.cs.deadReckoningTime⌋ →
        ∃ fs' k, (fs' = fs ++ [⟨i.2.1.ts, i.2.1.toXY⟩] ∨ fs' = fs) ∧
          (fs' = fs ↔ ∃ k, track c.cs (c.env.allowed lv) fs = some k ∧ k.time = i.2.1.ts) ∧
          Follows c.cs (c.env.allowed lv) lv fs' s'.post ∧ track c.cs (c.env.allowed lv) fs' = some k ∧ s'.position.isEmpty = false ∧
          s'.position.levelId = lv.id ∧ s'.position.provider = .INDOOR ∧
          s'.position.deviationM = i.2.1.deviationM ∧ s'.position.toXY = shown lv.geometry.boundingBox k.place) ∧
      (¬ (i.2.1.isEmpty = false ∧ Estim.Box.Covers lv.geometry.boundingBox i.2.1.toXY ∧ m.ts - i.2.1.ts < ⌊1000 * c.cs.deadReckoningTime⌋) →
        s'.position = Position.default ∧ Follows c.cs (c.env.allowed lv) lv fs s'.post) := by
    intro i p ph ha hi h22 hlab fs hfs hk
    have hl := ha.located
    rw [hst.locate] at hl
    obtain ⟨j1, j2⟩ := plain_fused hp.toWindowed s.post x.pre.currentTs i.2.1 x.outdoorPos i.1
    have j1' : (Post.fusePositions c.cs s.post x.pre.currentTs i.2.1 x.outdoorPos i.1).2.indoorPos = i.2.1 := by
      rw [j1]
      rcases hi with hi | hi
      · rw [hi, hz.same]; simp
      · rw [hi]; simp
    have hpr := ha.processed
    rw [j2, j1'] at hpr
    obtain ⟨q1, q2, q3⟩ := follows_step hp.toSmoothed hid (follows_fuse hfs _ _ _ _) i.2.1 hlab _ _ hpr hk
    rw [j1'] at q1 q2
    rw [h7] at q2 q3
    have es : s'.position = p.1 ∧ s'.post = p.2 ∧ s'.indoorPos = i.2.2 ∧ l.status = i.1 := by
      rw [hst.state]
      cases hl
      exact ⟨rfl, rfl, rfl, rfl⟩
    rw [es.1, es.2.1, es.2.2.1, h22]
    exact ⟨rfl, q1, es.2.2.2, q2, q3⟩
  obtain ⟨fs, hfx, hfol, hlt, hlc⟩ := hz.trail
  have hrp := reckoning_pos hp.toSmoothed
  -- whether a place is computed
  by_cases hw : ∃ t w, ClosesWith [lv] c.cs ms m t w ∧ Locates c.env.triSorts lv c.cs w
  · obtain ⟨t1, w1, hcw, hloc⟩ := hw
    rcases hcase with ⟨-, hncl, -⟩ | ⟨hclose, dd, win, hdd, had, -, hcl, -, hho, -⟩
    · exact absurd hcw.1 hncl
    have hw1 : m.ts = t1 ∧ win = w1 := by
      have := hcw.2
      rw [hcl] at this
      cases this
      exact ⟨rfl, rfl⟩
    obtain ⟨e1, e2⟩ := hw1
    subst e2
    have hheard : Heard [lv] c.cs m := ⟨dd, hdd, had⟩
    have hf : Fresh [lv] c.cs ms m :=
      ⟨ms, m, [], rfl, hheard, by simp, by have := hp.noSignal; omega⟩
    obtain ⟨ids, hnd, hlen, hids⟩ := hloc.1
    obtain ⟨id, hidm⟩ := List.exists_mem_of_length_pos (show 0 < ids.length by have := hp.least; omega)
    obtain ⟨hmap, mm, hmm, hme⟩ := hids id hidm
    obtain ⟨e, he, hee⟩ := (hho.ids id).mpr ⟨mm, hmm, hme⟩
    have hdl : d = lv.id := hdm ⟨e, he, by rw [hee]; exact hmap⟩
    have hini := k4 hdl
    have hlv : timedOutLevel c x = lv.id := by
      rw [fresh_level hc hp.noAction ht hf hst.sense, k5, k1 hini]
    obtain ⟨i, p, ph, ha⟩ := hlevel hlv
    obtain ⟨i1, i2, i3⟩ := knn_located hc hp.toByFingerprints hE hT ha.indoor hho hloc
    rw [h7] at i3
    obtain ⟨p1, p2, p3, p4, p5, p6⟩ := fixAt_parts i3
    have hlt' : ∀ k, track c.cs (c.env.allowed lv) fs = some k → k.time < i.2.1.ts := by
      intro k hk
      obtain ⟨f, hf1, hf2⟩ := last_time hk
      obtain ⟨a1, a2⟩ := hlt f hf1
      obtain ⟨o, o1, o2⟩ := hz.opened a1
      have hsp := span_pos hp.toWindowed
      rw [o1] at hclose
      simp only [Option.getD_some] at hclose
      rw [p2]
      omega
    obtain ⟨r1, r2, r3, r4, r5⟩ := hlev ha (Or.inr p1) i2 (fun _ => ⟨p3, p5⟩) fs hfol (fun k hk => (hlt' k hk).le)
    rw [p2, sub_self] at r4 r5
    have hcws : closedWindows [lv] c.cs (ms ++ [m]) = closedWindows [lv] c.cs ms ++ [(m.ts, win)] := by
      rw [closedWindows_snoc, if_pos hcw.1, hcl]; rfl
    have hlast : ∀ t0 w, LastWindow [lv] c.cs (Locates c.env.triSorts lv c.cs) (ms ++ [m]) t0 w → t0 = m.ts ∧ w = win := by
      intro t0 w hlw
      rcases lastWindow_snoc hlw with ⟨h, -⟩ | ⟨-, h⟩
      · have := h.2
        rw [hcl] at this
        cases this
        exact ⟨rfl, rfl⟩
      · exact absurd hloc (h _ _ hcw)
    -- the new trail
    have hin : Estim.Box.Covers lv.geometry.boundingBox i.2.1.toXY →
        FixesOf c.env.triSorts lv c.cs (closedWindows [lv] c.cs (ms ++ [m])) (fs ++ [⟨m.ts, i.2.1.toXY⟩]) ∧
        ∃ k, Follows c.cs (c.env.allowed lv) lv (fs ++ [⟨m.ts, i.2.1.toXY⟩]) s'.post ∧
          track c.cs (c.env.allowed lv) (fs ++ [⟨m.ts, i.2.1.toXY⟩]) = some k ∧ s'.position.isEmpty = false ∧
          s'.position.levelId = lv.id ∧ s'.position.provider = .INDOOR ∧
          s'.position.deviationM = i.2.1.deviationM ∧ s'.position.toXY = shown lv.geometry.boundingBox k.place := by
      intro hbx
      refine ⟨?_, ?_⟩
      · rw [hcws]
        exact fixesOf_snoc (o := some ⟨m.ts, i.2.1.toXY⟩) hfx ⟨hloc, rfl, p6, hbx⟩
      · obtain ⟨fs', k, s1, s2, s3⟩ := r4 ⟨p1, hbx, hrp⟩
        rcases s1 with rfl | s1
        · exact ⟨k, s3⟩
        · obtain ⟨k', e1, e2⟩ := s2.mp s1
          have := hlt' k' e1
          rw [p2] at this
          omega
    have hout : ¬ Estim.Box.Covers lv.geometry.boundingBox i.2.1.toXY →
        FixesOf c.env.triSorts lv c.cs (closedWindows [lv] c.cs (ms ++ [m])) fs ∧ Follows c.cs (c.env.allowed lv) lv fs s'.post := by
      intro hbx
      refine ⟨?_, (r5 (fun h => hbx h.2.1)).2⟩
      rw [hcws]
      have := fixesOf_snoc (o := none) (w := (m.ts, win)) hfx (fun _ => ⟨_, p6, hbx⟩)
      simpa using this
    refine ⟨⟨hb, k1, k2, by rw [r1, r2], ?_, ?_, ?_, ?_, ?_⟩, fun _ => ⟨?_, ?_⟩⟩
    · intro hn
      exact absurd hloc ((noWindow_snoc hn).2 _ _ hcw)
    · intro t0 w hlw
      obtain ⟨rfl, rfl⟩ := hlast t0 w hlw
      rw [r1]
      exact ⟨hini, i3⟩
    · rw [r1]; exact fun _ => ⟨p3, p5⟩
    · rw [r1, p2]
      exact fun _ => ⟨m.ts, opened_closes hcw.1, le_refl _⟩
    · rw [r1, p2]
      by_cases hbx : Estim.Box.Covers lv.geometry.boundingBox i.2.1.toXY
      · obtain ⟨a1, k, a2, -⟩ := hin hbx
        refine ⟨_, a1, a2, ?_, fun _ _ => by simp⟩
        intro f hf
        rw [List.getLast?_append_of_ne_nil _ (by simp)] at hf
        simp only [List.getLast?_singleton, Option.mem_some_iff] at hf
        rw [← hf]
        exact ⟨p1, le_refl _⟩
      · obtain ⟨a1, a2⟩ := hout hbx
        refine ⟨fs, a1, a2, ?_, fun _ h => absurd h hbx⟩
        intro f hf
        obtain ⟨k, hk⟩ := track_some c.cs (c.env.allowed lv) (fs := fs) (by rintro rfl; cases hf)
        obtain ⟨f', hf1, hf2⟩ := last_time hk
        rw [Option.mem_def, hf1, Option.some.injEq] at hf
        have := hlt' k hk
        rw [p2] at this
        rw [← hf, ← hf2]
        exact ⟨p1, this.le⟩
    · intro t0 w hlw hbox hage
      obtain ⟨rfl, rfl⟩ := hlast t0 w hlw
      rw [r1] at hbox ⊢
      obtain ⟨a1, k, -, a3⟩ := hin hbox
      exact ⟨_, k, a1, by simp, a3⟩
    · intro t0 w hlw hbad
      obtain ⟨rfl, rfl⟩ := hlast t0 w hlw
      rw [r1] at hbad
      refine ⟨(r5 (fun h => hbad ⟨h.2.1, by rw [sub_self]; exact hrp⟩)).1, fun _ => by rw [r3, i1], fun h => absurd ⟨_, _, hcw, hloc⟩ h⟩
  · have hkeep : x.radio = [] ∨ ∃ win, HandedOut win x.radio ∧ ¬ Locates c.env.triSorts lv c.cs win := by
      rcases hcase with ⟨hr, -⟩ | ⟨hclose, dd, win, hdd, had, -, hcl, -, hho, -⟩
      · exact Or.inl hr
      · exact Or.inr ⟨win, hho, fun h => hw ⟨_, _, ⟨⟨⟨dd, hdd, had⟩, hclose⟩, hcl⟩, h⟩⟩
    have hfx' : FixesOf c.env.triSorts lv c.cs (closedWindows [lv] c.cs (ms ++ [m])) fs := by
      rw [closedWindows_snoc]
      by_cases hcl : Closes [lv] c.cs ms m
      · rw [if_pos hcl]
        cases hcl' : (windows [lv] c.cs (ms ++ [m])).closed with
        | none => simpa using hfx
        | some w =>
          have := fixesOf_snoc (o := none) (w := w) hfx (fun hl => absurd ⟨w.1, w.2, ⟨hcl, hcl'⟩, hl⟩ hw)
          simpa using this
      · rw [if_neg hcl]; simpa using hfx
    have hkt : ∀ k, track c.cs (c.env.allowed lv) fs = some k → k.time ≤ s.indoorPos.ts := by
      intro k hk
      obtain ⟨f, hf1, hf2⟩ := last_time hk
      rw [hf2]
      exact (hlt f hf1).2
    have hsm : s.indoorPos.isEmpty = false → Estim.Box.Covers lv.geometry.boundingBox s.indoorPos.toXY →
        ∃ k, track c.cs (c.env.allowed lv) fs = some k ∧ k.time = s.indoorPos.ts := by
      intro he hbx
      have hl := hlc he hbx
      obtain ⟨k, hk⟩ := track_some c.cs (c.env.allowed lv) (fs := fs) (by rintro rfl; cases hl)
      obtain ⟨f, hf1, hf2⟩ := last_time hk
      rw [hl, Option.some.injEq] at hf1
      exact ⟨k, hk, by rw [hf2, ← hf1]⟩
    have hat : ∀ {i p ph}, AtLevel [lv] c s x lv i p ph →
        s'.indoorPos = s.indoorPos ∧ s'.post.indoorPos = s.indoorPos ∧ (Meshed c.env.triSorts lv c.cs → l.status = .NO_SOLUTION) ∧
        Follows c.cs (c.env.allowed lv) lv fs s'.post ∧
        (s.indoorPos.isEmpty = false ∧ Estim.Box.Covers lv.geometry.boundingBox s.indoorPos.toXY ∧ m.ts - s.indoorPos.ts < ⌊1000 * c.cs.deadReckoningTime⌋ →
          ∃ k, track c.cs (c.env.allowed lv) fs = some k ∧ s'.position.isEmpty = false ∧ s'.position.levelId = lv.id ∧
            s'.position.provider = .INDOOR ∧
            s'.position.deviationM = s.indoorPos.deviationM ∧ s'.position.toXY = shown lv.geometry.boundingBox k.place) ∧
        (¬ (s.indoorPos.isEmpty = false ∧ Estim.Box.Covers lv.geometry.boundingBox s.indoorPos.toXY ∧ m.ts - s.indoorPos.ts < ⌊1000 * c.cs.deadReckoningTime⌋) →
          s'.position = Position.default) := by
      intro i p ph ha
      obtain ⟨a1, a2, -, a4⟩ := knn_kept hc hp.toByFingerprints ha.indoor hkeep
      obtain ⟨r1, r2, r3, r4, r5⟩ := hlev ha (Or.inl a1) (by rw [a1, a2]) (by rw [a1]; exact hz.labelled) fs hfol (by rw [a1]; exact hkt)
      rw [a1] at r1 r2 r4 r5
      refine ⟨r1, r2, fun h => by rw [r3]; exact a4 h, ?_, ?_, fun h => (r5 h).1⟩
      · by_cases hin : s.indoorPos.isEmpty = false ∧ Estim.Box.Covers lv.geometry.boundingBox s.indoorPos.toXY ∧
            m.ts - s.indoorPos.ts < ⌊1000 * c.cs.deadReckoningTime⌋
        · obtain ⟨fs', k, -, b2, b3, -⟩ := r4 hin
          rw [b2.mpr (hsm hin.1 hin.2.1)] at b3
          exact b3
        · exact (r5 hin).2
      · intro hin
        obtain ⟨fs', k, -, b2, -, b4, b5⟩ := r4 hin
        rw [b2.mpr (hsm hin.1 hin.2.1)] at b4
        exact ⟨k, b4, b5⟩
    have hsame : s'.indoorPos = s.indoorPos ∧ s'.post.indoorPos = s.indoorPos ∧ Follows c.cs (c.env.allowed lv) lv fs s'.post := by
      rcases htl with h | h
      · obtain ⟨n1, n2, -⟩ := hnow h
        rw [n1, n2, hz.same]
        exact ⟨rfl, rfl, hfol⟩
      · obtain ⟨i, p, ph, ha⟩ := hlevel h
        obtain ⟨r1, r2, -, r4, -⟩ := hat ha
        exact ⟨r1, r2, r4⟩
    have hold : ∀ t0 w, LastWindow [lv] c.cs (Locates c.env.triSorts lv c.cs) (ms ++ [m]) t0 w →
        LastWindow [lv] c.cs (Locates c.env.triSorts lv c.cs) ms t0 w := by
      intro t0 w hlw
      rcases lastWindow_snoc hlw with ⟨h, h'⟩ | ⟨h, -⟩
      · exact absurd ⟨_, _, h, h'⟩ hw
      · exact h
    refine ⟨⟨hb, k1, k2, by rw [hsame.1, hsame.2.1], ?_, ?_, ?_, ?_, ?_⟩, fun hf => ?_⟩
    · intro hn
      obtain ⟨z1, z2⟩ := hz.before (noWindow_snoc hn).1
      refine ⟨by rw [hsame.1, z1], ?_⟩
      rcases htl with h | h
      · exact (hnow h).2.2 z2
      · obtain ⟨i, p, ph, ha⟩ := hlevel h
        obtain ⟨-, -, -, -, -, r4⟩ := hat ha
        rw [r4 (by rw [z1]; rintro ⟨h, -⟩; cases h)]
        intro h; cases h
    · intro t0 w hlw
      obtain ⟨z1, z2⟩ := hz.after t0 w (hold t0 w hlw)
      rw [hsame.1]
      exact ⟨k3 z1, z2⟩
    · rw [hsame.1]; exact hz.labelled
    · rw [hsame.1]
      intro he
      obtain ⟨o, o1, o2⟩ := hz.opened he
      obtain ⟨o', q1, q2, q3⟩ := opened_snoc (m := m) o1
      refine ⟨o', q1, ?_⟩
      by_cases hcl : Closes [lv] c.cs ms m
      · rw [q3 hcl]
        have := hcl.2
        rw [o1] at this
        have hsp := span_pos hp.toWindowed
        simp only [Option.getD_some] at this
        omega
      · rw [q2 hcl]; exact o2
    · rw [hsame.1]
      exact ⟨fs, hfx', hsame.2.2, hlt, hlc⟩
    · have hfl := fresh_level hc hp.noAction ht hf hst.sense
      have key : ∀ t0 w, LastWindow [lv] c.cs (Locates c.env.triSorts lv c.cs) (ms ++ [m]) t0 w →
          Nav.FixAt c lv t0 w s.indoorPos ∧ Meshed c.env.triSorts lv c.cs ∧ ∃ i p ph, AtLevel [lv] c s x lv i p ph := by
        intro t0 w hlw
        obtain ⟨z1, z2⟩ := hz.after t0 w (hold t0 w hlw)
        obtain ⟨_, _, _, -, -, hl', -⟩ := hlw
        exact ⟨z2, hl'.2, hlevel (by rw [hfl, k5, k1 (k3 z1)])⟩
      refine ⟨?_, ?_⟩
      · intro t0 w hlw hbox hage
        obtain ⟨q, -, i, p, ph, ha⟩ := key t0 w hlw
        obtain ⟨p1, p2, -⟩ := fixAt_parts q
        obtain ⟨-, -, -, -, r5, -⟩ := hat ha
        rw [hsame.1] at hbox ⊢
        obtain ⟨k, b1, b2⟩ := r5 ⟨p1, hbox, by rw [p2]; exact hage⟩
        exact ⟨fs, k, hfx', by rw [hlc p1 hbox, p2], b1, b2⟩
      · intro t0 w hlw hbad
        obtain ⟨q, hm, i, p, ph, ha⟩ := key t0 w hlw
        obtain ⟨p1, p2, -⟩ := fixAt_parts q
        obtain ⟨-, -, r3, -, -, r5⟩ := hat ha
        rw [hsame.1] at hbad
        exact ⟨r5 (fun h => hbad ⟨h.2.1, by rw [← p2]; exact h.2.2⟩), fun h => absurd h hw, fun _ => r3 hm⟩

theorem walked_runs {lv : Level} {c : Cfg} (hc : Client [lv] c) (hp : SmoothFingerprints c.cs)
    (hE : ∀ l, (c.env.triSorts.edges l).Perm l) (hT : ∀ l, (c.env.triSorts.triangles l).Perm l) (g : Garbage) (ms : List Measurement)
    (hts : ∀ m ∈ ms, 0 < m.ts) {s : State} {outs : List (Output × DebugState)} (h : runs c (init c g) ms = .ok (s, outs)) :
    Walked lv c ms s := by
  induction ms using List.reverseRecOn generalizing s outs with
  | nil => cases h; exact walked_init lv c hp g
  | append_singleton ms m ih =>
    obtain ⟨s1, outs1, r, h1, h2, -⟩ := runs_snoc h
    have ht := traced_runs hc g ms h1
    obtain ⟨-, x, l, hst, -⟩ := traced_step hc ht h2
    exact (walked_step hc hp hE hT ht (ih (fun m hm => hts m (by simp [hm])) h1) (hts m (by simp)) hst).1

/-- **C132.** A client with one floor that locates by fingerprints and smooths with the alpha-beta filter (as with the default
settings and the algorithm KNN), after any history of measurements with positive times, gets a measurement while the last
admitted signal is younger than the no-signal threshold.  Look at the last closed window from which a place is computed.  The
client has computed the place of its averages.  If it lies in the bounding box of the floor and the window is younger than the dead
reckoning time, the answer is OK, names the floor, and shows with the precision 1 the place that the motion of all fixes so far has
reached (moved into the box and rounded down to centimetres); this place is the last fix.  Otherwise the answer has no place, and
its status is NAVIGATION_ERROR if this measurement closed such a window and NO_SOLUTION if not. -/
theorem C132_answer {lv : Level} {c : Cfg} (hc : Client [lv] c) (hp : SmoothFingerprints c.cs)
    (hE : ∀ l, (c.env.triSorts.edges l).Perm l) (hT : ∀ l, (c.env.triSorts.triangles l).Perm l) (g : Garbage)
    (batches : List (List Measurement))
    {s : State} {outs : List (Output × DebugState)} (h : navigateAll c (init c g) batches = .ok (s, outs)) (m : Measurement)
    (hts : ∀ e ∈ taken batches ++ [m], 0 < e.ts) (hf : Fresh [lv] c.cs (taken batches) m) {t0 : Int} {win : List RadioMeasurement}
    (hw : LastWindow [lv] c.cs (Locates c.env.triSorts lv c.cs) (taken batches ++ [m]) t0 win) :
    ∃ s' out dbg p, navigate c s [m] = .ok (s', [(out, dbg)]) ∧ PlaceIn c.env.triSorts lv c.cs win p ∧ dbg.indoorPosition = p ∧
      (Estim.Box.Covers lv.geometry.boundingBox p ∧ m.ts - t0 < ⌊1000 * c.cs.deadReckoningTime⌋ →
        out.status = .OK ∧ out.posLevel = lv.id ∧ out.provider = some .INDOOR ∧
        (∃ fs k, FixesOf c.env.triSorts lv c.cs (closedWindows [lv] c.cs (taken batches ++ [m])) fs ∧ fs.getLast? = some ⟨t0, p⟩ ∧
          track c.cs (c.env.allowed lv) fs = some k ∧
          (⟨out.posLatitude, out.posLongitude⟩ : Geo.GeoPoint) = Geo.localToGps (shown lv.geometry.boundingBox k.place) lv.bindingPoint) ∧
        out.posR = some 1) ∧
      (¬ (Estim.Box.Covers lv.geometry.boundingBox p ∧ m.ts - t0 < ⌊1000 * c.cs.deadReckoningTime⌋) →
        Blank out ∧
        ((∃ t w, ClosesWith [lv] c.cs (taken batches) m t w ∧ Locates c.env.triSorts lv c.cs w) → out.status = .NAVIGATION_ERROR) ∧
        ((¬ ∃ t w, ClosesWith [lv] c.cs (taken batches) m t w ∧ Locates c.env.triSorts lv c.cs w) → out.status = .NO_SOLUTION)) := by
  have ht := history_traced hc h
  rw [navigateAll_eq] at h
  have hz := walked_runs hc hp hE hT g _ (fun e he => hts e (by simp [he])) h
  obtain ⟨s', out, dbg, x, l, h1, hst, hdbg⟩ := one_parts hc ht.inv m
  obtain ⟨hz', han⟩ := walked_step hc hp hE hT ht hz (hts m (by simp)) hst
  obtain ⟨-, hfix⟩ := hz'.after t0 win hw
  obtain ⟨q1, q2, q3, q4, q5, q6⟩ := fixAt_parts hfix
  have han := han hf
  obtain ⟨hsh, -, herr⟩ := stepped_shows hc hst
  refine ⟨s', out, dbg, ⟨s'.indoorPos.x, s'.indoorPos.y⟩, h1, q6, ?_, ?_, ?_⟩
  · rw [hdbg]
    simp [debugState, hz'.same]
  · rintro ⟨hbox, hage⟩
    obtain ⟨fs, k, a1, a2, a3, p1, p2, p3, p4, p5⟩ := han.inside t0 win hw hbox hage
    rcases hsh with ⟨he, -⟩ | ⟨he, hok, lv', hlv', hid, e1, e2, e3, e4, e5⟩
    · rw [p1] at he
      cases he
    have : lv' = lv := by simpa using hlv'
    subst this
    refine ⟨hok, ?_, ?_, ⟨fs, k, a1, a2, a3, ?_⟩, ?_⟩
    · rw [e1, p2]
    · rw [e5, p3]
    · rw [e2, e3, p5]
    · rw [e4, p4, q4]
  · intro hbad
    obtain ⟨hpos, hs1, hs2⟩ := han.outside t0 win hw hbad
    have hemp : s'.position.isEmpty = true := by rw [hpos]; rfl
    rcases hsh with ⟨-, -, hb⟩ | ⟨he, -⟩
    swap
    · rw [hemp] at he; cases he
    have hst' := herr hemp
    refine ⟨hb, fun h => ?_, fun h => ?_⟩
    · rw [hst', hs1 h]; rfl
    · rw [hst', hs2 h]; rfl

/-- **C132.** Before the first such window no place comes from the fingerprints: an answer with a place shows the satellite
receiver's one. -/
theorem C132_before {lv : Level} {c : Cfg} (hc : Client [lv] c) (hp : SmoothFingerprints c.cs)
    (hE : ∀ l, (c.env.triSorts.edges l).Perm l) (hT : ∀ l, (c.env.triSorts.triangles l).Perm l) (g : Garbage)
    (batches : List (List Measurement)) {s : State} {outs : List (Output × DebugState)}
    (h : navigateAll c (init c g) batches = .ok (s, outs)) (hts : ∀ e ∈ taken batches, 0 < e.ts)
    (hw : NoWindow [lv] c.cs (Locates c.env.triSorts lv c.cs) (taken batches)) :
    ∀ o ∈ outs.getLast?, o.1.status = .OK → o.1.provider = some .GNSS := by
  intro o ho hok
  rw [navigateAll_eq] at h
  have hz := walked_runs hc hp hE hT g _ hts h
  rcases last_shows hc (inv_init hc g) _ h ho with ⟨-, hne, -⟩ | ⟨he, -, lv', -, -, -, -, -, -, e5⟩
  · exact absurd hok hne
  · rw [e5, (hz.before hw).2 he]

/-- **C132** is about the default settings with the algorithm KNN. -/
theorem C132_default : SmoothFingerprints { useAlgorithm := .KNN } := by
  refine ⟨⟨?_, rfl, rfl, rfl, ?_⟩, ?_⟩
  · exact ⟨by constructor <;> norm_num, rfl⟩
  · norm_num
  · constructor <;> simp

end Verif.Trail
