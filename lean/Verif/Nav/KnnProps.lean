import Verif.Nav.KnnLemmas
import Verif.Nav.ZoneProps

/-!
# Property theorems for C113: what a client with fingerprints on one floor answers
-/

namespace Verif.Nav

open Verif.Levels
open Verif.Knn (Result)

/-- What the state of the client holds after the measurements `ms`. -/
structure Printed (lv : Level) (c : Cfg) (ms : List Measurement) (s : State) : Prop where
  buffered : Buffered c.cs (windows [lv] c.cs ms) s.pre.buffer
  known : s.level.history.isInitialized = true → s.level.history.current = lv.id
  unknown : s.level.history.isInitialized = false → s.level.history.current = ""
  same : s.indoorPos = s.post.indoorPos
  before : NoWindow [lv] c.cs (Locates c.env.triSorts lv c.cs) ms → s.indoorPos = Position.default ∧ Gnss s.position
  after : ∀ t0 win, LastWindow [lv] c.cs (Locates c.env.triSorts lv c.cs) ms t0 win →
    s.level.history.isInitialized = true ∧ FixAt c lv t0 win s.indoorPos

theorem printed_init (lv : Level) (c : Cfg) (hp : PlainFingerprints c.cs) (g : Garbage) : Printed lv c [] (init c g) := by
  have hs := span_pos hp.toWindowed
  constructor
  · constructor
    · rfl
    · exact fun _ => ⟨rfl, rfl⟩
    · intro t h; cases h
    · exact hs
  · intro h; cases h
  · exact fun _ => rfl
  · rfl
  · exact fun _ => ⟨rfl, fun h => (by cases h)⟩
  · rintro t0 win ⟨a, e, b, h, -⟩
    simp at h

/-- What the client answers from, after a recent signal. -/
structure Placed (lv : Level) (c : Cfg) (ms : List Measurement) (m : Measurement) (s' : State) (st : NavigationStatus) : Prop where
  inside : ∀ t0 win, LastWindow [lv] c.cs (Locates c.env.triSorts lv c.cs) (ms ++ [m]) t0 win →
    Estim.Box.Covers lv.geometry.boundingBox s'.indoorPos.toXY → m.ts - t0 < ⌊1000 * c.cs.deadReckoningTime⌋ →
    s'.position = { s'.indoorPos with ts := m.ts, x := downToCm s'.indoorPos.x, y := downToCm s'.indoorPos.y }
  outside : ∀ t0 win, LastWindow [lv] c.cs (Locates c.env.triSorts lv c.cs) (ms ++ [m]) t0 win →
    ¬ (Estim.Box.Covers lv.geometry.boundingBox s'.indoorPos.toXY ∧ m.ts - t0 < ⌊1000 * c.cs.deadReckoningTime⌋) →
    s'.position = Position.default ∧
    ((∃ t w, ClosesWith [lv] c.cs ms m t w ∧ Locates c.env.triSorts lv c.cs w) → st = .OK) ∧
    ((¬ ∃ t w, ClosesWith [lv] c.cs ms m t w ∧ Locates c.env.triSorts lv c.cs w) → st = .NO_SOLUTION)

theorem fixAt_parts {c : Cfg} {lv : Level} {t0 : Int} {win : List RadioMeasurement} {q : Position} (h : FixAt c lv t0 win q) :
    q.isEmpty = false ∧ q.ts = t0 ∧ q.levelId = lv.id ∧ q.deviationM = 1 ∧ q.provider = .INDOOR ∧
    ∃ avg, MapAverages lv win avg ∧ PlaceOf c.env.triSorts lv c.cs avg ⟨q.x, q.y⟩ := by
  obtain ⟨avg, p, h1, h2, rfl⟩ := h
  exact ⟨rfl, rfl, rfl, rfl, rfl, avg, h1, h2⟩

theorem printed_step {lv : Level} {c : Cfg} (hc : Client [lv] c) (hp : PlainFingerprints c.cs)
    (hE : ∀ l, (c.env.triSorts.edges l).Perm l) (hT : ∀ l, (c.env.triSorts.triangles l).Perm l) {g : Garbage}
    {ms : List Measurement} {s : State} (ht : Traced [lv] c g ms s) (hz : Printed lv c ms s) {m : Measurement} (hts : 0 < m.ts)
    {s' : State} {out : Output} {x : Sensed} {l : Located} (hst : Stepped [lv] c s m s' out x l) :
    Printed lv c (ms ++ [m]) s' ∧ (Fresh [lv] c.cs ms m → Placed lv c ms m s' l.status) := by
  obtain ⟨-, h1, h2, -, -, -, h7, ⟨d, h8, h9⟩, -⟩ := sense_parts hst.sense
  obtain ⟨f1, -, f3, -⟩ := locate_frame hst.locate
  have hid : lv.id ≠ "" := hc.map.named lv (by simp)
  have hna : 0 < c.noAction := by have := hp.noAction; rw [hc.parts.noAction]; omega
  have hto : timedOutLevel c x = "" ∨ timedOutLevel c x = x.levelId := by
    rw [timedOut_eq ht.inv hna hst.sense]
    split_ifs
    · exact Or.inl rfl
    · exact Or.inr rfl
  obtain ⟨hb, hcase⟩ := framed_radio hc hp.toWindowed.framed hz.buffered hts h1
  rw [← windows_snoc, ← h2, ← f1, ← hst.state] at hb
  rw [← windows_snoc] at hcase
  rw [hp.barometer] at h9
  unfold LevelEst.calculateLevel at h9
  simp only [Bool.false_eq_true, if_false, Prod.mk.injEq] at h9
  obtain ⟨g1, g2⟩ := h9
  have g2' : s'.level.history = (LevelEst.detectLevelUsingHistory s.level.history d).2 := by
    rw [hst.state, f3, ← g2]
  obtain ⟨hd, hdm⟩ := knn_level hc hp.toByFingerprints x.radio h8
  -- the history after the call
  have hhist : (s'.level.history.isInitialized = true → s'.level.history.current = lv.id) ∧
      (s'.level.history.isInitialized = false → s'.level.history.current = "") ∧
      (s.level.history.isInitialized = true → s'.level.history.isInitialized = true) ∧
      (d = lv.id → s'.level.history.isInitialized = true) ∧ x.levelId = s'.level.history.current := by
    rw [g2', ← g1]
    rcases hd with rfl | rfl
    · have e0 : LevelEst.detectLevelUsingHistory s.level.history "" = (s.level.history.current, s.level.history) := by
        simp [LevelEst.detectLevelUsingHistory]
      rw [e0]
      exact ⟨hz.known, hz.unknown, fun h => h, fun h => absurd h.symm hid, rfl⟩
    · obtain ⟨e1, e2, e3⟩ := history_same (h := s.level.history) hid hz.known
      rw [e1, e2, e3]
      exact ⟨fun _ => rfl, fun h => (by cases h), fun _ => rfl, fun _ => rfl, rfl⟩
  obtain ⟨k1, k2, k3, k4, k5⟩ := hhist
  -- the branch for a level
  have hlevel : timedOutLevel c x = lv.id → ∃ i p ph, AtLevel [lv] c s x lv i p ph := by
    intro h
    obtain ⟨lv', i, p, ph, ha⟩ := locate_level hc ht.inv hst.sensed ⟨lv, by simp, h.symm⟩
    have : lv' = lv := by simpa using ha.mem
    subst this
    exact ⟨i, p, ph, ha⟩
  have htl : timedOutLevel c x = "" ∨ timedOutLevel c x = lv.id := by
    rcases hto with h | h
    · exact Or.inl h
    · rw [h, k5]
      cases hi : s'.level.history.isInitialized with
      | true => exact Or.inr (k1 hi)
      | false => exact Or.inl (k2 hi)
  have hnow : timedOutLevel c x = "" → s'.post = s.post ∧ s'.indoorPos = s.indoorPos ∧ (Gnss s.position → Gnss s'.position) := by
    intro h
    obtain ⟨-, a2, a3, -, a5⟩ := locate_nowhere hc hst.locate h
    rw [hst.state]
    refine ⟨a2, a3, ?_⟩
    rcases a5 with ⟨-, a, -⟩ | ⟨-, a, -⟩ <;> rw [a]
    · exact fun _ => (gnss_sense ht.gnss hst.sense).1
    · exact fun h => h
  -- what the estimator answers goes on
  have hlev : ∀ {i p ph}, AtLevel [lv] c s x lv i p ph → (i.2.1 = s.indoorPos ∨ i.2.1.isEmpty = false) → i.2.2 = i.2.1 →
      s'.indoorPos = i.2.1 ∧ s'.post.indoorPos = i.2.1 ∧ l.status = i.1 ∧
      (i.2.1.isEmpty = true → s'.position = Position.default) ∧
      (i.2.1.isEmpty = false →
          (Estim.Box.Covers lv.geometry.boundingBox i.2.1.toXY ∧ m.ts - i.2.1.ts < ⌊1000 * c.cs.deadReckoningTime⌋ →
            s'.position = { i.2.1 with ts := m.ts, x := downToCm i.2.1.x, y := downToCm i.2.1.y }) ∧
          (¬ (Estim.Box.Covers lv.geometry.boundingBox i.2.1.toXY ∧ m.ts - i.2.1.ts < ⌊1000 * c.cs.deadReckoningTime⌋) →
            s'.position = Position.default)) := by
    intro i p ph ha hi h22
    have hl := ha.located
    rw [hst.locate] at hl
    obtain ⟨j1, j2⟩ := plain_fused hp.toWindowed s.post x.pre.currentTs i.2.1 x.outdoorPos i.1
    have j1' : (Post.fusePositions c.cs s.post x.pre.currentTs i.2.1 x.outdoorPos i.1).2.indoorPos = i.2.1 := by
      rw [j1]
      rcases hi with hi | hi
      · rw [hi, hz.same]; simp
      · rw [hi]; simp
    obtain ⟨q1, q2, q3⟩ := framed_processed hp.toWindowed.framed hp.smoothing _ _ _ _ _ _ ha.processed
    rw [j2, j1'] at q2 q3
    rw [j1'] at q1
    rw [h7] at q3
    have es : s'.position = p.1 ∧ s'.post = p.2 ∧ s'.indoorPos = i.2.2 ∧ l.status = i.1 := by
      rw [hst.state]
      cases hl
      exact ⟨rfl, rfl, rfl, rfl⟩
    rw [es.1, es.2.1, es.2.2.1, h22]
    exact ⟨rfl, q1, es.2.2.2, q2, q3⟩
  -- whether a place is computed
  by_cases hw : ∃ t w, ClosesWith [lv] c.cs ms m t w ∧ Locates c.env.triSorts lv c.cs w
  · obtain ⟨t1, w1, hcw, hloc⟩ := hw
    rcases hcase with ⟨-, hncl, -⟩ | ⟨-, dd, win, hdd, had, -, hcl, -, hho, -⟩
    · exact absurd hcw.1 hncl
    have hw1 : m.ts = t1 ∧ win = w1 := by
      have := hcw.2
      rw [hcl] at this
      cases this
      exact ⟨rfl, rfl⟩
    obtain ⟨e1, e2⟩ := hw1
    subst e2
    have hheard : Heard [lv] c.cs m := ⟨dd, hdd, had⟩
    have hf : Fresh [lv] c.cs ms m :=
      ⟨ms, m, [], rfl, hheard, by simp, by have := hp.noSignal; omega⟩
    obtain ⟨ids, hnd, hlen, hids⟩ := hloc.1
    obtain ⟨id, hidm⟩ := List.exists_mem_of_length_pos (show 0 < ids.length by have := hp.least; omega)
    obtain ⟨hmap, mm, hmm, hme⟩ := hids id hidm
    obtain ⟨e, he, hee⟩ := (hho.ids id).mpr ⟨mm, hmm, hme⟩
    have hdl : d = lv.id := hdm ⟨e, he, by rw [hee]; exact hmap⟩
    have hini := k4 hdl
    have hlv : timedOutLevel c x = lv.id := by
      rw [fresh_level hc hp.noAction ht hf hst.sense, k5, k1 hini]
    obtain ⟨i, p, ph, ha⟩ := hlevel hlv
    have hfix := knn_located hc hp.toByFingerprints hE hT ha.indoor hho hloc
    obtain ⟨i1, i2, i3⟩ := hfix
    rw [h7] at i3
    obtain ⟨p1, p2, p3, p4, p5, -⟩ := fixAt_parts i3
    obtain ⟨r1, r2, r3, -, r5⟩ := hlev ha (Or.inr p1) i2
    have hlast : ∀ t0 w, LastWindow [lv] c.cs (Locates c.env.triSorts lv c.cs) (ms ++ [m]) t0 w → t0 = m.ts ∧ w = win := by
      intro t0 w hlw
      rcases lastWindow_snoc hlw with ⟨h, -⟩ | ⟨-, h⟩
      · have := h.2
        rw [hcl] at this
        cases this
        exact ⟨rfl, rfl⟩
      · exact absurd hloc (h _ _ hcw)
    refine ⟨⟨hb, k1, k2, by rw [r1, r2], ?_, ?_⟩, fun _ => ⟨?_, ?_⟩⟩
    · intro hn
      exact absurd hloc ((noWindow_snoc hn).2 _ _ hcw)
    · intro t0 w hlw
      obtain ⟨rfl, rfl⟩ := hlast t0 w hlw
      rw [r1]
      exact ⟨hini, i3⟩
    · intro t0 w hlw hbox hage
      obtain ⟨rfl, rfl⟩ := hlast t0 w hlw
      rw [r1] at hbox ⊢
      exact (r5 p1).1 ⟨hbox, by rw [p2]; exact hage⟩
    · intro t0 w hlw hbad
      obtain ⟨rfl, rfl⟩ := hlast t0 w hlw
      rw [r1] at hbad
      refine ⟨(r5 p1).2 (by rw [p2]; exact hbad), fun _ => by rw [r3, i1], fun h => absurd ⟨_, _, hcw, hloc⟩ h⟩
  · have hkeep : x.radio = [] ∨ ∃ win, HandedOut win x.radio ∧ ¬ Locates c.env.triSorts lv c.cs win := by
      rcases hcase with ⟨hr, -⟩ | ⟨hclose, dd, win, hdd, had, -, hcl, -, hho, -⟩
      · exact Or.inl hr
      · exact Or.inr ⟨win, hho, fun h => hw ⟨_, _, ⟨⟨⟨dd, hdd, had⟩, hclose⟩, hcl⟩, h⟩⟩
    have hat : ∀ {i p ph}, AtLevel [lv] c s x lv i p ph →
        s'.indoorPos = s.indoorPos ∧ s'.post.indoorPos = s.indoorPos ∧ (Meshed c.env.triSorts lv c.cs → l.status = .NO_SOLUTION) ∧
      (s.indoorPos.isEmpty = true → s'.position = Position.default) ∧
      (s.indoorPos.isEmpty = false →
          (Estim.Box.Covers lv.geometry.boundingBox s.indoorPos.toXY ∧ m.ts - s.indoorPos.ts < ⌊1000 * c.cs.deadReckoningTime⌋ →
            s'.position = { s.indoorPos with ts := m.ts, x := downToCm s.indoorPos.x, y := downToCm s.indoorPos.y }) ∧
          (¬ (Estim.Box.Covers lv.geometry.boundingBox s.indoorPos.toXY ∧ m.ts - s.indoorPos.ts < ⌊1000 * c.cs.deadReckoningTime⌋) →
            s'.position = Position.default)) := by
      intro i p ph ha
      obtain ⟨a1, a2, -, a4⟩ := knn_kept hc hp.toByFingerprints ha.indoor hkeep
      obtain ⟨r1, r2, r3, r4, r5⟩ := hlev ha (Or.inl a1) (by rw [a1, a2])
      rw [a1] at r1 r2 r4 r5
      exact ⟨r1, r2, fun h => by rw [r3]; exact a4 h, r4, r5⟩
    have hsame : s'.indoorPos = s.indoorPos ∧ s'.post.indoorPos = s.indoorPos := by
      rcases htl with h | h
      · obtain ⟨n1, n2, -⟩ := hnow h
        rw [n1, n2, hz.same]
        exact ⟨rfl, rfl⟩
      · obtain ⟨i, p, ph, ha⟩ := hlevel h
        obtain ⟨r1, r2, -⟩ := hat ha
        exact ⟨r1, r2⟩
    have hold : ∀ t0 w, LastWindow [lv] c.cs (Locates c.env.triSorts lv c.cs) (ms ++ [m]) t0 w →
        LastWindow [lv] c.cs (Locates c.env.triSorts lv c.cs) ms t0 w := by
      intro t0 w hlw
      rcases lastWindow_snoc hlw with ⟨h, h'⟩ | ⟨h, -⟩
      · exact absurd ⟨_, _, h, h'⟩ hw
      · exact h
    refine ⟨⟨hb, k1, k2, by rw [hsame.1, hsame.2], ?_, ?_⟩, fun hf => ?_⟩
    · intro hn
      obtain ⟨z1, z2⟩ := hz.before (noWindow_snoc hn).1
      refine ⟨by rw [hsame.1, z1], ?_⟩
      rcases htl with h | h
      · exact (hnow h).2.2 z2
      · obtain ⟨i, p, ph, ha⟩ := hlevel h
        obtain ⟨-, -, -, r4, -⟩ := hat ha
        rw [r4 (by rw [z1]; rfl)]
        intro h; cases h
    · intro t0 w hlw
      obtain ⟨z1, z2⟩ := hz.after t0 w (hold t0 w hlw)
      rw [hsame.1]
      exact ⟨k3 z1, z2⟩
    · have hfl := fresh_level hc hp.noAction ht hf hst.sense
      have key : ∀ t0 w, LastWindow [lv] c.cs (Locates c.env.triSorts lv c.cs) (ms ++ [m]) t0 w →
          FixAt c lv t0 w s.indoorPos ∧ Meshed c.env.triSorts lv c.cs ∧ ∃ i p ph, AtLevel [lv] c s x lv i p ph := by
        intro t0 w hlw
        obtain ⟨z1, z2⟩ := hz.after t0 w (hold t0 w hlw)
        obtain ⟨_, _, _, -, -, hl', -⟩ := hlw
        exact ⟨z2, hl'.2, hlevel (by rw [hfl, k5, k1 (k3 z1)])⟩
      refine ⟨?_, ?_⟩
      · intro t0 w hlw hbox hage
        obtain ⟨q, -, i, p, ph, ha⟩ := key t0 w hlw
        obtain ⟨p1, p2, -⟩ := fixAt_parts q
        obtain ⟨-, -, -, -, r5⟩ := hat ha
        rw [hsame.1] at hbox ⊢
        exact (r5 p1).1 ⟨hbox, by rw [p2]; exact hage⟩
      · intro t0 w hlw hbad
        obtain ⟨q, hm, i, p, ph, ha⟩ := key t0 w hlw
        obtain ⟨p1, p2, -⟩ := fixAt_parts q
        obtain ⟨-, -, r3, -, r5⟩ := hat ha
        rw [hsame.1] at hbad
        exact ⟨(r5 p1).2 (by rw [p2]; exact hbad), fun h => absurd h hw, fun _ => r3 hm⟩

theorem printed_runs {lv : Level} {c : Cfg} (hc : Client [lv] c) (hp : PlainFingerprints c.cs)
    (hE : ∀ l, (c.env.triSorts.edges l).Perm l) (hT : ∀ l, (c.env.triSorts.triangles l).Perm l) (g : Garbage) (ms : List Measurement)
    (hts : ∀ m ∈ ms, 0 < m.ts) {s : State} {outs : List (Output × DebugState)} (h : runs c (init c g) ms = .ok (s, outs)) :
    Printed lv c ms s := by
  induction ms using List.reverseRecOn generalizing s outs with
  | nil => cases h; exact printed_init lv c hp g
  | append_singleton ms m ih =>
    obtain ⟨s1, outs1, r, h1, h2, -⟩ := runs_snoc h
    have ht := traced_runs hc g ms h1
    obtain ⟨-, x, l, hst, -⟩ := traced_step hc ht h2
    exact (printed_step hc hp hE hT ht (ih (fun m hm => hts m (by simp [hm])) h1) (hts m (by simp)) hst).1

/-- **C113.** A client with one floor and plain settings for fingerprints, after any history of measurements with positive
times, gets a measurement while the last admitted signal is younger than the no-signal threshold.  Look at the last closed
window from which a place is computed: enough different transmitters with fingerprints were heard (and, with triangles, the
floor has one).  The client has computed the place of its averages.  If the place lies in the bounding box of the floor and
the window is younger than the dead reckoning time, the answer is OK, names the floor, and shows the place (rounded down to
centimetres) with the precision 1; otherwise the answer has no place, and its status is NAVIGATION_ERROR if this measurement
closed such a window and NO_SOLUTION if not. -/
theorem C113_place {lv : Level} {c : Cfg} (hc : Client [lv] c) (hp : PlainFingerprints c.cs)
    (hE : ∀ l, (c.env.triSorts.edges l).Perm l) (hT : ∀ l, (c.env.triSorts.triangles l).Perm l) (g : Garbage)
    (batches : List (List Measurement))
    {s : State} {outs : List (Output × DebugState)} (h : navigateAll c (init c g) batches = .ok (s, outs)) (m : Measurement)
    (hts : ∀ e ∈ taken batches ++ [m], 0 < e.ts) (hf : Fresh [lv] c.cs (taken batches) m) {t0 : Int} {win : List RadioMeasurement}
    (hw : LastWindow [lv] c.cs (Locates c.env.triSorts lv c.cs) (taken batches ++ [m]) t0 win) :
    ∃ s' out dbg avg p, navigate c s [m] = .ok (s', [(out, dbg)]) ∧ MapAverages lv win avg ∧
      PlaceOf c.env.triSorts lv c.cs avg p ∧ dbg.indoorPosition = p ∧
      (Estim.Box.Covers lv.geometry.boundingBox p ∧ m.ts - t0 < ⌊1000 * c.cs.deadReckoningTime⌋ →
        out.status = .OK ∧ out.posLevel = lv.id ∧ out.provider = some .INDOOR ∧
        (⟨out.posLatitude, out.posLongitude⟩ : Geo.GeoPoint) = Geo.localToGps ⟨downToCm p.x, downToCm p.y⟩ lv.bindingPoint ∧
        out.posR = some 1) ∧
      (¬ (Estim.Box.Covers lv.geometry.boundingBox p ∧ m.ts - t0 < ⌊1000 * c.cs.deadReckoningTime⌋) →
        Blank out ∧
        ((∃ t w, ClosesWith [lv] c.cs (taken batches) m t w ∧ Locates c.env.triSorts lv c.cs w) → out.status = .NAVIGATION_ERROR) ∧
        ((¬ ∃ t w, ClosesWith [lv] c.cs (taken batches) m t w ∧ Locates c.env.triSorts lv c.cs w) → out.status = .NO_SOLUTION)) := by
  have ht := history_traced hc h
  rw [navigateAll_eq] at h
  have hz := printed_runs hc hp hE hT g _ (fun e he => hts e (by simp [he])) h
  obtain ⟨s', out, dbg, x, l, h1, hst, hdbg⟩ := one_parts hc ht.inv m
  obtain ⟨hz', han⟩ := printed_step hc hp hE hT ht hz (hts m (by simp)) hst
  obtain ⟨-, hfix⟩ := hz'.after t0 win hw
  obtain ⟨q1, q2, q3, q4, q5, avg, q6, q7⟩ := fixAt_parts hfix
  have han := han hf
  obtain ⟨hsh, -, herr⟩ := stepped_shows hc hst
  refine ⟨s', out, dbg, avg, ⟨s'.indoorPos.x, s'.indoorPos.y⟩, h1, q6, q7, ?_, ?_, ?_⟩
  · rw [hdbg]
    simp [debugState, hz'.same]
  · rintro ⟨hbox, hage⟩
    have hpos := han.inside t0 win hw hbox hage
    rcases hsh with ⟨he, -⟩ | ⟨he, hok, lv', hlv', hid, e1, e2, e3, e4, e5⟩
    · rw [hpos] at he
      dsimp only at he
      rw [q1] at he
      cases he
    have : lv' = lv := by simpa using hlv'
    subst this
    refine ⟨hok, ?_, ?_, ?_, ?_⟩
    · rw [e1, hpos]; exact q3
    · rw [e5, hpos, Option.some.injEq]; exact q5
    · rw [e2, e3, hpos]; rfl
    · rw [e4, hpos, Option.some.injEq]; exact q4
  · intro hbad
    obtain ⟨hpos, hs1, hs2⟩ := han.outside t0 win hw hbad
    have hemp : s'.position.isEmpty = true := by rw [hpos]; rfl
    rcases hsh with ⟨-, -, hb⟩ | ⟨he, -⟩
    swap
    · rw [hemp] at he; cases he
    have hst' := herr hemp
    refine ⟨hb, fun h => ?_, fun h => ?_⟩
    · rw [hst', hs1 h]; rfl
    · rw [hst', hs2 h]; rfl

/-- **C113.** Before the first such window no place comes from the fingerprints: an answer with a place shows the satellite
receiver's one. -/
theorem C113_before {lv : Level} {c : Cfg} (hc : Client [lv] c) (hp : PlainFingerprints c.cs)
    (hE : ∀ l, (c.env.triSorts.edges l).Perm l) (hT : ∀ l, (c.env.triSorts.triangles l).Perm l) (g : Garbage)
    (batches : List (List Measurement)) {s : State} {outs : List (Output × DebugState)}
    (h : navigateAll c (init c g) batches = .ok (s, outs)) (hts : ∀ e ∈ taken batches, 0 < e.ts)
    (hw : NoWindow [lv] c.cs (Locates c.env.triSorts lv c.cs) (taken batches)) :
    ∀ o ∈ outs.getLast?, o.1.status = .OK → o.1.provider = some .GNSS := by
  intro o ho hok
  rw [navigateAll_eq] at h
  have hz := printed_runs hc hp hE hT g _ hts h
  rcases last_shows hc (inv_init hc g) _ h ho with ⟨-, hne, -⟩ | ⟨he, -, lv', -, -, -, -, -, -, e5⟩
  · exact absurd hok hne
  · rw [e5, (hz.before hw).2 he]

/-- **C113.** One of the two cases always holds. -/
theorem C113_cases (ls : List Level) (cs : CommonSettings) (P : List RadioMeasurement → Prop) (ms : List Measurement) :
    NoWindow ls cs P ms ∨ ∃ t win, LastWindow ls cs P ms t win :=
  window_cases ls cs P ms

/-- A corner of a triangle with three matches, and signals within ±1000 dB, give its triangle some weight. -/
theorem mesh_heavy {lv : Level} {cs : CommonSettings} {avg : List RadioData} (hb : Knn.Bounded 1000 (Knn.levelRadiomap lv) avg)
    {t : Triang.Triangle} {v : Triang.Vertex} (hv : v ∈ t.corners) (hm : 3 ≤ (Knn.matched (Knn.levelRadiomap lv) avg v.id).length) :
    1 / 100 ≤ meshWeight lv cs avg t := by
  obtain ⟨w, hw⟩ := Option.isSome_iff_exists.mp ((Knn.C29_weights (Knn.levelRadiomap lv) avg cs.useDiffMode v.id).1.mpr hm)
  have hge := Knn.C29_lower_bound _ _ _ _ 1000 w (by norm_num) hb hw
  have hnn : ∀ id, 0 ≤ rpWeight lv cs avg id := by
    intro id
    rw [← weightOf_eq]
    unfold Knn.weightOf
    cases hf : StdMap.find? (Knn.calcRpWeightsKnn (Knn.levelRadiomap lv) avg cs.useDiffMode) id with
    | none => simp
    | some x => exact ((Knn.C29_weights _ _ _ _).2 _ hf).1.le
  have hvw : rpWeight lv cs avg v.id = w := by
    rw [← weightOf_eq]
    unfold Knn.weightOf; rw [hw]; rfl
  have hsum : w ≤ meshWeight lv cs avg t := by
    unfold meshWeight
    have h1 := hnn t.a.id
    have h2 := hnn t.b.id
    have h3 := hnn t.c.id
    simp only [Triang.Triangle.corners, List.mem_cons, List.not_mem_nil, or_false] at hv
    rcases hv with rfl | rfl | rfl <;> linarith
  have hs : Real.sqrt (4 * 1000 + 100) ≤ 100 := Real.sqrt_le_iff.mpr ⟨by norm_num, by norm_num⟩
  have hs0 : 0 < Real.sqrt (4 * 1000 + 100) := Real.sqrt_pos.mpr (by norm_num)
  have : (1 : ℝ) / 100 ≤ 1 / Real.sqrt (4 * 1000 + 100) := one_div_le_one_div_of_le hs0 hs
  linarith

/-- **C113.** If the reference points lie in the bounding box of the floor, the signal levels within ±1000 dB, and a corner of
a triangle has fingerprints of three transmitters heard in the window, the place lies in the bounding box. -/
theorem C113_in_box {s : Triang.Sorts} {lv : Level} {cs : CommonSettings} (ht : cs.useTriangles = true) {avg : List RadioData}
    {p : Geo.XYPoint} (h : PlaceOf s lv cs avg p) (hb : Knn.Bounded 1000 (Knn.levelRadiomap lv) avg)
    (hm : ∃ t ∈ Knn.levelTriangles s lv, ∃ v ∈ t.corners, 3 ≤ (Knn.matched (Knn.levelRadiomap lv) avg v.id).length)
    (hbox : ∀ rp ∈ lv.radiomap.referencePoints, Estim.Box.Covers lv.geometry.boundingBox rp.point) :
    Estim.Box.Covers lv.geometry.boundingBox p := by
  unfold PlaceOf at h
  rw [if_pos ht] at h
  obtain ⟨before, t, after, h1, h2, h3, -, h5⟩ := h
  obtain ⟨u, hu, v, hv, hm⟩ := hm
  have hw : 1 / 100 ≤ meshWeight lv cs avg t := by
    have hu' := mesh_heavy (cs := cs) hb hv hm
    rw [h1] at hu
    rcases List.mem_append.mp hu with hu | hu
    · exact hu'.trans (h2 u hu).le
    rcases List.mem_cons.mp hu with rfl | hu
    · exact hu'
    · exact hu'.trans (h3 u hu)
  obtain ⟨a, ha, b, hb', d, hd, -, -, -, hin, -⟩ := h5 (le_trans (by norm_num) hw)
  obtain ⟨x, y, z, hx, hy, hz, hs, e1, e2⟩ := hin
  have hz' : z = 1 - x - y := by linarith
  have key : ∀ lo hi α β γ : ℝ, lo ≤ α → α ≤ hi → lo ≤ β → β ≤ hi → lo ≤ γ → γ ≤ hi →
      lo ≤ x * α + y * β + z * γ ∧ x * α + y * β + z * γ ≤ hi := by
    intro lo hi α β γ a1 a2 b1 b2 c1 c2
    have p1 := mul_le_mul_of_nonneg_left a1 hx
    have p2 := mul_le_mul_of_nonneg_left a2 hx
    have p3 := mul_le_mul_of_nonneg_left b1 hy
    have p4 := mul_le_mul_of_nonneg_left b2 hy
    have p5 := mul_le_mul_of_nonneg_left c1 hz
    have p6 := mul_le_mul_of_nonneg_left c2 hz
    have q1 : x * lo + y * lo + z * lo = lo := by rw [hz']; ring
    have q2 : x * hi + y * hi + z * hi = hi := by rw [hz']; ring
    exact ⟨by linarith, by linarith⟩
  obtain ⟨a1, a2, a3, a4⟩ := hbox a ha
  obtain ⟨b1, b2, b3, b4⟩ := hbox b hb'
  obtain ⟨d1, d2, d3, d4⟩ := hbox d hd
  unfold Estim.Box.Covers
  rw [e1, e2]
  have k1 := key _ _ _ _ _ a1 a2 b1 b2 d1 d2
  have k2 := key _ _ _ _ _ a3 a4 b3 b4 d3 d4
  exact ⟨k1.1, k1.2, k2.1, k2.2⟩

end Verif.Nav
