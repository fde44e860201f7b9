import Verif.Nav.ZoneLemmas
import Verif.Nav.Examples

/-!
# Property theorems for C94: what a client with zones on one floor answers
-/

namespace Verif.Nav

open Verif.Levels
open Verif.Knn (Result)

/-- What the state of the client holds after the measurements `ms`. -/
structure Zoned (lv : Level) (c : Cfg) (ms : List Measurement) (s : State) : Prop where
  buffered : Buffered c.cs (windows [lv] c.cs ms) s.pre.buffer
  pending : ∀ h ∈ (windows [lv] c.cs ms).pending, Radio.Admissible [lv] c.cs h.data
  before : (windows [lv] c.cs ms).closed = none → s.level.history.isInitialized = false ∧ s.level.history.current = "" ∧
    s.post.indoorPos = Position.default ∧ Gnss s.position
  after : ∀ t0 win, (windows [lv] c.cs ms).closed = some (t0, win) →
    s.level.history.isInitialized = true ∧ s.level.history.current = lv.id ∧
    ∃ b t, ZoneAt c lv t0 win b t s.post.indoorPos

theorem zoned_init (lv : Level) (c : Cfg) (hp : PlainZones c.cs) (g : Garbage) : Zoned lv c [] (init c g) := by
  have hs := span_pos hp.toWindowed
  constructor
  · constructor
    · rfl
    · exact fun _ => ⟨rfl, rfl⟩
    · intro t h; cases h
    · exact hs
  · intro h hh; cases hh
  · exact fun _ => ⟨rfl, rfl, rfl, fun h => (by cases h)⟩
  · intro _ _ h; cases h

theorem history_same {h : LevelEst.History} {id : String} (hid : id ≠ "") (hh : h.isInitialized = true → h.current = id) :
    (LevelEst.detectLevelUsingHistory h id).1 = id ∧ (LevelEst.detectLevelUsingHistory h id).2.current = id ∧
    (LevelEst.detectLevelUsingHistory h id).2.isInitialized = true := by
  unfold LevelEst.detectLevelUsingHistory
  rw [if_neg hid]
  dsimp only
  cases hi : h.isInitialized with
  | false =>
    split_ifs <;> simp_all
  | true =>
    have := hh hi
    split_ifs <;> simp [hi, this]

/-- What the client holds after a recent signal. -/
structure Answered (lv : Level) (c : Cfg) (ms : List Measurement) (m : Measurement) (s s' : State) (st : NavigationStatus) : Prop where
  before : (windows [lv] c.cs (ms ++ [m])).closed = none → Gnss s'.position
  inside : ∀ t0 win, (windows [lv] c.cs (ms ++ [m])).closed = some (t0, win) →
    Estim.Box.Covers lv.geometry.boundingBox s'.post.indoorPos.toXY → m.ts - t0 < ⌊1000 * c.cs.deadReckoningTime⌋ →
    s'.position = { s'.post.indoorPos with
      ts := m.ts, x := downToCm s'.post.indoorPos.x, y := downToCm s'.post.indoorPos.y }
  outside : ∀ t0 win, (windows [lv] c.cs (ms ++ [m])).closed = some (t0, win) →
    ¬ (Estim.Box.Covers lv.geometry.boundingBox s'.post.indoorPos.toXY ∧ m.ts - t0 < ⌊1000 * c.cs.deadReckoningTime⌋) →
    s'.position = Position.default ∧ (Closes [lv] c.cs ms m → st = .OK) ∧ (¬ Closes [lv] c.cs ms m → st = .NO_SOLUTION)

theorem zoned_step {lv : Level} {c : Cfg} (hc : Client [lv] c) (hp : PlainZones c.cs) {g : Garbage} {ms : List Measurement} {s : State}
    (ht : Traced [lv] c g ms s) (hz : Zoned lv c ms s) {m : Measurement} (hts : 0 < m.ts) {s' : State} {out : Output} {x : Sensed}
    {l : Located} (hst : Stepped [lv] c s m s' out x l) :
    Zoned lv c (ms ++ [m]) s' ∧ (Fresh [lv] c.cs ms m → Answered lv c ms m s s' l.status) := by
  obtain ⟨-, h1, h2, -, -, -, h7, ⟨d, h8, h9⟩, -⟩ := sense_parts hst.sense
  obtain ⟨f1, -, f3, -⟩ := locate_frame hst.locate
  have hid : lv.id ≠ "" := hc.map.named lv (by simp)
  have hna : 0 < c.noAction := by have := hp.noAction; rw [hc.parts.noAction]; omega
  have hto : timedOutLevel c x = "" ∨ timedOutLevel c x = x.levelId := by
    rw [timedOut_eq ht.inv hna hst.sense]
    split_ifs
    · exact Or.inl rfl
    · exact Or.inr rfl
  obtain ⟨hb, hcase⟩ := framed_radio hc hp.toWindowed.framed hz.buffered hts h1
  rw [← windows_snoc, ← h2, ← f1, ← hst.state] at hb
  rw [← windows_snoc] at hcase
  rw [hp.barometer] at h9
  unfold LevelEst.calculateLevel at h9
  simp only [Bool.false_eq_true, if_false, Prod.mk.injEq] at h9
  obtain ⟨g1, g2⟩ := h9
  have g2' : s'.level.history = (LevelEst.detectLevelUsingHistory s.level.history d).2 := by
    rw [hst.state, f3, ← g2]
  -- the branch for a level
  have hlevel : timedOutLevel c x = lv.id → ∃ i p ph, AtLevel [lv] c s x lv i p ph := by
    intro h
    obtain ⟨lv', i, p, ph, ha⟩ := locate_level hc ht.inv hst.sensed ⟨lv, by simp, h.symm⟩
    have : lv' = lv := by simpa using ha.mem
    subst this
    exact ⟨i, p, ph, ha⟩
  rcases hcase with ⟨hr, hncl, hcl, hpe, hpn⟩ | ⟨hclose, dd, win, hd, had, hwin, hcl, hpe, hho, -⟩
  · -- nothing is handed out
    have hncl' : ¬ Closes [lv] c.cs ms m := hncl
    rw [hr, detect_nothing hc] at h8
    cases h8
    have e0 : LevelEst.detectLevelUsingHistory s.level.history "" = (s.level.history.current, s.level.history) := by
      simp [LevelEst.detectLevelUsingHistory]
    rw [e0] at g1 g2'
    dsimp only at g1 g2'
    have hpend : ∀ h ∈ (windows [lv] c.cs (ms ++ [m])).pending, Radio.Admissible [lv] c.cs h.data := by
      by_cases hh : Heard [lv] c.cs m
      · rw [hpe hh]
        obtain ⟨dd, hd, ha⟩ := hh
        intro h hm
        rcases List.mem_append.mp hm with hm | hm
        · exact hz.pending h hm
        · rw [List.mem_singleton] at hm
          rw [hm, hd]
          exact ha
      · rw [hpn hh]; exact hz.pending
    -- without a level
    have hnow : timedOutLevel c x = "" → s'.post = s.post ∧ (Gnss s.position → Gnss s'.position) := by
      intro h
      obtain ⟨-, a2, -, -, a5⟩ := locate_nowhere hc hst.locate h
      rw [hst.state]
      refine ⟨a2, ?_⟩
      rcases a5 with ⟨-, a, -⟩ | ⟨-, a, -⟩ <;> rw [a]
      · exact fun _ => (gnss_sense ht.gnss hst.sense).1
      · exact fun h => h
    -- with the level
    have hat : timedOutLevel c x = lv.id → s'.post.indoorPos = s.post.indoorPos ∧ l.status = .NO_SOLUTION ∧
        (s.post.indoorPos.isEmpty = false →
          (Estim.Box.Covers lv.geometry.boundingBox s.post.indoorPos.toXY ∧ m.ts - s.post.indoorPos.ts < ⌊1000 * c.cs.deadReckoningTime⌋ →
            s'.position = { s.post.indoorPos with ts := m.ts, x := downToCm s.post.indoorPos.x, y := downToCm s.post.indoorPos.y }) ∧
          (¬ (Estim.Box.Covers lv.geometry.boundingBox s.post.indoorPos.toXY ∧ m.ts - s.post.indoorPos.ts < ⌊1000 * c.cs.deadReckoningTime⌋) →
            s'.position = Position.default)) := by
      intro h
      obtain ⟨i, p, ph, ha⟩ := hlevel h
      have hi := ha.indoor
      rw [hr, handed_nothing hc hp.toByZones] at hi
      cases hi
      have hl := ha.located
      rw [hst.locate] at hl
      obtain ⟨k1, k2⟩ := plain_fused hp.toWindowed s.post x.pre.currentTs Position.default x.outdoorPos .NO_SOLUTION
      have k1' : (Post.fusePositions c.cs s.post x.pre.currentTs Position.default x.outdoorPos .NO_SOLUTION).2.indoorPos =
          s.post.indoorPos := k1
      obtain ⟨q1, q2, q3⟩ := framed_processed hp.toWindowed.framed hp.smoothing _ _ _ _ _ _ ha.processed
      rw [k2, k1'] at q3
      rw [k1'] at q1
      rw [h7] at q3
      have es : s'.position = p.1 ∧ s'.post = p.2 ∧ l.status = .NO_SOLUTION := by
        rw [hst.state]
        cases hl
        exact ⟨rfl, rfl, rfl⟩
      rw [es.1, es.2.1]
      exact ⟨q1, es.2.2, q3⟩
    refine ⟨⟨hb, hpend, ?_, ?_⟩, fun hf => ?_⟩
    · intro hnone
      rw [hcl] at hnone
      obtain ⟨z1, z2, z3, z4⟩ := hz.before hnone
      have h0 : timedOutLevel c x = "" := by
        rcases hto with h | h
        · exact h
        · rw [h, ← g1]; exact z2
      obtain ⟨n1, n2⟩ := hnow h0
      rw [g2']
      exact ⟨z1, z2, by rw [n1]; exact z3, n2 z4⟩
    · intro t0 win hs
      rw [hcl] at hs
      obtain ⟨z1, z2, b, t, z3⟩ := hz.after t0 win hs
      rw [g2']
      refine ⟨z1, z2, b, t, ?_⟩
      rcases hto with h | h
      · rw [(hnow h).1]; exact z3
      · rw [← g1, z2] at h
        rw [(hat h).1]; exact z3
    · have hfl := fresh_level hc hp.noAction ht hf hst.sense
      have key : ∀ t0 win, (windows [lv] c.cs (ms ++ [m])).closed = some (t0, win) →
          timedOutLevel c x = lv.id ∧ s.post.indoorPos.isEmpty = false ∧ s.post.indoorPos.ts = t0 := by
        intro t0 win hs
        rw [hcl] at hs
        obtain ⟨-, z2, b, t, z3⟩ := hz.after t0 win hs
        exact ⟨by rw [hfl, ← g1]; exact z2, z3.isEmpty, z3.ts⟩
      refine ⟨?_, ?_, ?_⟩
      · intro hnone
        rw [hcl] at hnone
        obtain ⟨z1, z2, z3, z4⟩ := hz.before hnone
        exact (hnow (by rw [hfl, ← g1]; exact z2)).2 z4
      · intro t0 win hs hbox hage
        obtain ⟨k1, k2, k3⟩ := key t0 win hs
        obtain ⟨q1, -, q3⟩ := hat k1
        rw [q1] at hbox ⊢
        exact (q3 k2).1 ⟨hbox, by rw [k3]; exact hage⟩
      · intro t0 win hs hbad
        obtain ⟨k1, k2, k3⟩ := key t0 win hs
        obtain ⟨q1, q2, q3⟩ := hat k1
        rw [q1] at hbad
        exact ⟨(q3 k2).2 (by rw [k3]; exact hbad), fun h => absurd h hncl', fun _ => q2⟩
  · -- a window is closed
    have hheard : Heard [lv] c.cs m := ⟨dd, hd, had⟩
    have hcloses : Closes [lv] c.cs ms m := ⟨hheard, hclose⟩
    have hadm : ∀ h ∈ win, Radio.Admissible [lv] c.cs h.data := by
      intro h hm
      rw [hwin] at hm
      rcases List.mem_append.mp hm with hm | hm
      · exact hz.pending h hm
      · rw [List.mem_singleton] at hm
        rw [hm]; exact had
    have hne : win ≠ [] := by rw [hwin]; simp
    rw [handed_level hc hp.toByZones hho hne hadm] at h8
    cases h8
    obtain ⟨e1, e2, e3⟩ := history_same (h := s.level.history) hid (by
      intro hi
      cases hw : (windows [lv] c.cs ms).closed with
      | none => rw [(hz.before hw).1] at hi; cases hi
      | some r => exact (hz.after r.1 r.2 hw).2.1)
    have hf : Fresh [lv] c.cs ms m :=
      ⟨ms, m, [], rfl, hheard, by simp, by have := hp.noSignal; omega⟩
    have hlv : timedOutLevel c x = lv.id := by
      rw [fresh_level hc hp.noAction ht hf hst.sense, ← g1, e1]
    obtain ⟨i, p, ph, ha⟩ := hlevel hlv
    obtain ⟨q, b, t, hq, hzone⟩ := handed_zone hc hp.toByZones hho hne hadm s.indoorPos x.pre.currentTs
    have hi := ha.indoor
    rw [hq] at hi
    cases hi
    rw [h7] at hzone
    have hl := ha.located
    rw [hst.locate] at hl
    obtain ⟨k1, k2⟩ := plain_fused hp.toWindowed s.post x.pre.currentTs q x.outdoorPos .OK
    have k1' : (Post.fusePositions c.cs s.post x.pre.currentTs q x.outdoorPos .OK).2.indoorPos = q := by
      rw [k1, hzone.isEmpty]; rfl
    obtain ⟨q1, q2, q3⟩ := framed_processed hp.toWindowed.framed hp.smoothing _ _ _ _ _ _ ha.processed
    rw [k2, k1'] at q3
    rw [k1'] at q1
    rw [h7] at q3
    have es : s'.position = p.1 ∧ s'.post = p.2 ∧ l.status = .OK := by
      rw [hst.state]
      cases hl
      exact ⟨rfl, rfl, rfl⟩
    have hpos : s'.post.indoorPos = q := by rw [es.2.1]; exact q1
    refine ⟨⟨hb, (by rw [hpe]; intro h hm; cases hm), ?_, ?_⟩, fun _ => ⟨?_, ?_, ?_⟩⟩
    · intro hnone; rw [hcl] at hnone; cases hnone
    · intro t0 win' hs
      rw [hcl] at hs
      cases hs
      rw [g2', hpos]
      exact ⟨e3, e2, b, t, hzone⟩
    · intro hnone; rw [hcl] at hnone; cases hnone
    · intro t0 win' hs hbox hage
      rw [hcl] at hs
      cases hs
      rw [hpos] at hbox ⊢
      rw [es.1]
      exact (q3 hzone.isEmpty).1 ⟨hbox, by rw [hzone.ts]; exact hage⟩
    · intro t0 win' hs hbad
      rw [hcl] at hs
      cases hs
      rw [hpos] at hbad
      rw [es.1]
      exact ⟨(q3 hzone.isEmpty).2 (by rw [hzone.ts]; exact hbad), fun _ => es.2.2, fun h => absurd hcloses h⟩

theorem zoned_runs {lv : Level} {c : Cfg} (hc : Client [lv] c) (hp : PlainZones c.cs) (g : Garbage) (ms : List Measurement)
    (hts : ∀ m ∈ ms, 0 < m.ts) {s : State} {outs : List (Output × DebugState)} (h : runs c (init c g) ms = .ok (s, outs)) :
    Zoned lv c ms s := by
  induction ms using List.reverseRecOn generalizing s outs with
  | nil => cases h; exact zoned_init lv c hp g
  | append_singleton ms m ih =>
    obtain ⟨s1, outs1, r, h1, h2, -⟩ := runs_snoc h
    have ht := traced_runs hc g ms h1
    obtain ⟨-, x, l, hst, -⟩ := traced_step hc ht h2
    exact (zoned_step hc hp ht (ih (fun m hm => hts m (by simp [hm])) h1) (hts m (by simp)) hst).1

/-- The strongest transmitter of a window is unique. -/
theorem strongest_unique {w : List RadioMeasurement} {a b : String} (ha : Strongest w a) (hb : Strongest w b) : a = b := by
  obtain ⟨⟨ma, hma, ea⟩, h1⟩ := ha
  obtain ⟨⟨mb, hmb, eb⟩, h2⟩ := hb
  have h1 := h1 mb hmb
  have h2 := h2 ma hma
  rw [eb] at h1
  rw [ea] at h2
  rcases h1 with h1 | ⟨h1, h1'⟩ <;> rcases h2 with h2 | ⟨h2, h2'⟩
  · exact absurd h1 (lt_asymm h2)
  · rw [h2] at h1; exact absurd h1 (lt_irrefl _)
  · rw [h1] at h2; exact absurd h2 (lt_irrefl _)
  · exact le_antisymm h1' h2'

/-- **C94.** A client with one floor and plain zone settings, after any history of measurements with positive times, gets
a measurement while the last admitted signal is younger than the no-signal threshold.  If a window of signals was closed
(by this or an earlier measurement), there is a strongest transmitter in the last closed window, and it is on the floor.
If the transmitter lies in the bounding box of the floor and the window is younger than the dead reckoning time, the answer
is OK, names the floor, and shows the place of the transmitter (rounded down to centimetres) with the precision of its
mean strength; otherwise the answer has no place, and its status is NAVIGATION_ERROR if this measurement closed the
window and NO_SOLUTION if not. -/
theorem C94_zone {lv : Level} {c : Cfg} (hc : Client [lv] c) (hp : PlainZones c.cs) (g : Garbage) (batches : List (List Measurement))
    {s : State} {outs : List (Output × DebugState)} (h : navigateAll c (init c g) batches = .ok (s, outs)) (m : Measurement)
    (hts : ∀ e ∈ taken batches ++ [m], 0 < e.ts) (hf : Fresh [lv] c.cs (taken batches) m)
    {t0 : Int} {win : List RadioMeasurement} (hw : (windows [lv] c.cs (taken batches ++ [m])).closed = some (t0, win)) :
    ∃ s' out dbg b t, navigate c s [m] = .ok (s', [(out, dbg)]) ∧ Strongest win b ∧ lv.transmitter b = some t ∧
      dbg.indoorPosition = ⟨t.point.x, t.point.y⟩ ∧
      (Estim.Box.Covers lv.geometry.boundingBox ⟨t.point.x, t.point.y⟩ ∧ m.ts - t0 < ⌊1000 * c.cs.deadReckoningTime⌋ →
        out.status = .OK ∧ out.posLevel = lv.id ∧ out.provider = some .INDOOR ∧
        (⟨out.posLatitude, out.posLongitude⟩ : Geo.GeoPoint) =
          Geo.localToGps ⟨downToCm t.point.x, downToCm t.point.y⟩ lv.bindingPoint ∧
        ∃ r, out.posR = some r ∧ ∀ A B a b', c.indoor = .zone A B → StdMap.find? A lv.id = some a →
          StdMap.find? B lv.id = some b' → b' ≠ 0 → 1 < r ∧ r = Real.exp ((a - meanRssi win b) / (2 * b')) + 1) ∧
      (¬ (Estim.Box.Covers lv.geometry.boundingBox ⟨t.point.x, t.point.y⟩ ∧ m.ts - t0 < ⌊1000 * c.cs.deadReckoningTime⌋) →
        Blank out ∧ (Closes [lv] c.cs (taken batches) m → out.status = .NAVIGATION_ERROR) ∧
        (¬ Closes [lv] c.cs (taken batches) m → out.status = .NO_SOLUTION)) := by
  have ht := history_traced hc h
  rw [navigateAll_eq] at h
  have hz := zoned_runs hc hp g _ (fun e he => hts e (by simp [he])) h
  obtain ⟨s', out, dbg, x, l, h1, hst, hdbg⟩ := one_parts hc ht.inv m
  obtain ⟨hz', han⟩ := zoned_step hc hp ht hz (hts m (by simp)) hst
  obtain ⟨-, -, b, t, hzone⟩ := hz'.after t0 win hw
  have han := han hf
  have hxy : s'.post.indoorPos.toXY = ⟨t.point.x, t.point.y⟩ := by
    simp [Position.toXY, hzone.x, hzone.y]
  obtain ⟨hsh, -, herr⟩ := stepped_shows hc hst
  refine ⟨s', out, dbg, b, t, h1, hzone.strongest, hzone.tx, ?_, ?_, ?_⟩
  · rw [hdbg]
    simp [debugState, hzone.x, hzone.y]
  · rintro ⟨hbox, hage⟩
    have hpos := han.inside t0 win hw (by rw [hxy]; exact hbox) hage
    rcases hsh with ⟨he, -⟩ | ⟨he, hok, lv', hlv', hid, e1, e2, e3, e4, e5⟩
    · rw [hpos] at he
      have := hzone.isEmpty
      dsimp only at he
      rw [this] at he
      cases he
    have : lv' = lv := by simpa using hlv'
    subst this
    refine ⟨hok, ?_, ?_, ?_, s'.post.indoorPos.deviationM, ?_, hzone.formula⟩
    · rw [e1, hpos]; exact hzone.levelId
    · rw [e5, hpos, Option.some.injEq]; exact hzone.provider
    · rw [e2, e3, hpos]
      simp only [Position.toXY, hzone.x, hzone.y]
    · rw [e4, hpos]
  · intro hbad
    obtain ⟨hpos, hs1, hs2⟩ := han.outside t0 win hw (by rw [hxy]; exact hbad)
    have hemp : s'.position.isEmpty = true := by rw [hpos]; rfl
    rcases hsh with ⟨-, -, hb⟩ | ⟨he, -⟩
    swap
    · rw [hemp] at he; cases he
    have hst' := herr hemp
    refine ⟨hb, fun h => ?_, fun h => ?_⟩
    · rw [hst', hs1 h]; rfl
    · rw [hst', hs2 h]; rfl

/-- **C94.** Before the first window is closed no place comes from the transmitters: an answer with a place shows the
satellite receiver's one. -/
theorem C94_first_window {lv : Level} {c : Cfg} (hc : Client [lv] c) (hp : PlainZones c.cs) (g : Garbage) (batches : List (List Measurement))
    {s : State} {outs : List (Output × DebugState)} (h : navigateAll c (init c g) batches = .ok (s, outs))
    (hts : ∀ e ∈ taken batches, 0 < e.ts) (hw : (windows [lv] c.cs (taken batches)).closed = none) :
    ∀ o ∈ outs.getLast?, o.1.status = .OK → o.1.provider = some .GNSS := by
  intro o ho hok
  rw [navigateAll_eq] at h
  have hz := zoned_runs hc hp g _ hts h
  rcases last_shows hc (inv_init hc g) _ h ho with ⟨-, hne, -⟩ | ⟨he, -, lv', -, -, -, -, -, -, e5⟩
  · exact absurd hok hne
  · rw [e5, (hz.before hw).2.2.2 he]

/-- **C94.** The strongest transmitter is determined by the window. -/
theorem C94_strongest_unique {w : List RadioMeasurement} {a b : String} (ha : Strongest w a) (hb : Strongest w b) : a = b :=
  strongest_unique ha hb

/-! ## A client with plain settings -/

/-- The default settings without smoothing. -/
noncomputable def plainSettings : CommonSettings := { useSmoothing := false }

theorem plain_settings : PlainZones plainSettings := by
  refine ⟨⟨?_, ?_⟩, ?_⟩
  · exact ⟨by constructor <;> simp [plainSettings] <;> norm_num, by simp [plainSettings]⟩
  · simp [plainSettings]
  · constructor <;> simp [plainSettings] <;> norm_num

/-- The client of the other examples without smoothing. -/
noncomputable def plainCfg : Cfg where
  env := exEnv
  cs := plainSettings
  levels := collect [exLevel]
  noSignal := 35000
  noAction := 20000
  detector := .transmitters false
  indoor := .zone [("A", -59)] [("A", 10)]
  pre := Radio.mkCfg (collect [exLevel]) plainSettings
  fusion := Fusion.fusionConfig plainSettings

theorem plainClient : Client [exLevel] plainCfg where
  map := exClient.map
  settings := ⟨fun h => (by cases h), fun h => (by cases h)⟩
  sort := sortsBy_insertionSort _
  radioSorts := Radio.insertionSorts_lawful
  built := by
    obtain ⟨st, h⟩ := exClient.built
    refine ⟨[("A", ⟨-59, 10⟩)], ?_⟩
    have hz : Estim.zoneParams [("A", ⟨-59, 10⟩)] (collect [exLevel]) = some ([("A", -59)], [("A", 10)]) := by
      simp [Estim.zoneParams, collect_levels, exLevel, bareLevel, Level.addTransmitters, List.foldlM, StdMap.find?, StdMap.set,
        StdMap.insertSorted]
    unfold mkCfg createPositionEstimator
    rw [if_neg (by simp [plainCfg, plainSettings]), hz]
    simp [plainCfg, plainSettings, createLevelEstimator]

theorem plain_heard (t : Int) : Heard [exLevel] plainCfg.cs (exRadio t) := by
  refine ⟨_, rfl, ?_, ?_, ?_, .inr ⟨exTx, ⟨exLevel, rfl, ?_, rfl⟩, ?_⟩⟩
  · simp [Radio.TypeEnabled, plainCfg, plainSettings]
  · intro _; simp [plainCfg, plainSettings]; norm_num
  · intro h; exact absurd rfl h
  · simp [exLevel, bareLevel, Level.addTransmitters, exTx, StdMap.insert, StdMap.insertSorted]
  · simp [exTx, plainCfg, plainSettings]

/-- **C94** is about possible histories: two signals of the beacon, two seconds apart, and then an accelerometer message
after `k` milliseconds.  For five seconds the client reports the place of the beacon, afterwards NO_SOLUTION. -/
theorem C94_example (g : Garbage) (k : Int) (hk : 0 ≤ k) (hk' : k < 35000) :
    ∃ s outs s' out dbg, navigateAll plainCfg (init plainCfg g) [[exRadio 1000, exRadio 3000]] = .ok (s, outs) ∧
      navigate plainCfg s [exAccel (3000 + k)] = .ok (s', [(out, dbg)]) ∧
      (k < 5000 → out.status = .OK ∧ out.posLevel = "A" ∧ out.provider = some .INDOOR ∧
        out.posR = some (Real.exp (11 / 20) + 1)) ∧
      (5000 ≤ k → out.status = .NO_SOLUTION) := by
  obtain ⟨s, outs, h1, -⟩ := C79_total plainClient g [[exRadio 1000, exRadio 3000]]
  have hrec : records [exRadio 1000, exRadio 3000] = [exRadio 1000, exRadio 3000] := records_ordered _ (by simp [Ordered, exRadio])
  have htk : taken [[exRadio 1000, exRadio 3000]] = [exRadio 1000, exRadio 3000] := by simp [taken, hrec]
  have hna : ∀ t, ¬ Heard [exLevel] plainCfg.cs (exAccel t) := by rintro t ⟨d, hd, -⟩; cases hd
  have hspan : spanOf plainCfg.cs = 1000 := by
    simp [spanOf, plainCfg, plainSettings]
  have hdead : ⌊1000 * plainCfg.cs.deadReckoningTime⌋ = 5000 := by
    have : (1000 : ℝ) * plainCfg.cs.deadReckoningTime = ((5000 : Int) : ℝ) := by
      simp [plainCfg, plainSettings]; norm_num
    rw [this, Int.floor_intCast]
  obtain ⟨d1, e1, a1⟩ := plain_heard 1000
  have ed1 : d1 = ⟨.BEACON, "tx", -70, 0, 0, 0⟩ := by cases e1; rfl
  subst ed1
  have hw : windows [exLevel] plainCfg.cs (taken [[exRadio 1000, exRadio 3000]] ++ [exAccel (3000 + k)]) =
      ⟨some 3000, [], some (3000, [⟨⟨.BEACON, "tx", -70, 0, 0, 0⟩, 1000⟩, ⟨⟨.BEACON, "tx", -70, 0, 0, 0⟩, 3000⟩])⟩ := by
    rw [htk, windows_snoc, take_not_heard _ (hna _)]
    rw [show [exRadio 1000, exRadio 3000] = ([] ++ [exRadio 1000]) ++ [exRadio 3000] from rfl, windows_snoc, windows_snoc]
    unfold exRadio
    rw [take_heard _ a1, take_heard _ a1, hspan]
    simp [Windows.hear, windows]
  obtain ⟨s', out, dbg, b, t, h2, h3, h4, -, h5, h6⟩ := C94_zone plainClient plain_settings g [[exRadio 1000, exRadio 3000]] h1
    (exAccel (3000 + k))
    (by
      rw [htk]
      intro e he
      simp only [List.mem_append, List.mem_cons, List.not_mem_nil, or_false] at he
      rcases he with (rfl | rfl) | rfl <;> simp only [exRadio, exAccel] <;> omega)
    ⟨[exRadio 1000], exRadio 3000, [exAccel (3000 + k)], by rw [htk]; rfl, plain_heard _,
      (by intro e he; rw [List.mem_singleton] at he; rw [he]; exact hna _),
      (by change 3000 + k < 3000 + 1000 * 35; omega)⟩ (by rw [hw])
  obtain ⟨⟨mm, hmm, hb⟩, -⟩ := h3
  have hb' : b = "tx" := by
    rw [← hb]
    simp only [List.mem_cons, List.not_mem_nil, or_false] at hmm
    rcases hmm with rfl | rfl <;> rfl
  subst hb'
  have ht : t = exTx := by
    have : exLevel.transmitter "tx" = some exTx := by
      simp [exLevel, bareLevel, Level.addTransmitters, Level.transmitter, exTx, StdMap.insert, StdMap.insertSorted, StdMap.find?]
    rw [this] at h4
    cases h4
    rfl
  subst ht
  have hbox : Estim.Box.Covers exLevel.geometry.boundingBox ⟨exTx.point.x, exTx.point.y⟩ := by
    simp [Estim.Box.Covers, exLevel, bareLevel, Level.addTransmitters, exTx]
  have hage : (exAccel (3000 + k)).ts - 3000 = k := by simp [exAccel]
  rw [hage, hdead] at h5 h6
  refine ⟨s, outs, s', out, dbg, h1, h2, fun hlt => ?_, fun hge => ?_⟩
  · obtain ⟨r1, r2, r3, -, r, r5, r7⟩ := h5 ⟨hbox, hlt⟩
    refine ⟨r1, r2, r3, ?_⟩
    rw [r5, (r7 _ _ (-59) 10 rfl (by simp [StdMap.find?, exLevel, bareLevel, Level.addTransmitters])
      (by simp [StdMap.find?, exLevel, bareLevel, Level.addTransmitters]) (by norm_num)).2]
    congr 3
    simp [meanRssi, Radio.ofTransmitter, Radio.mean]
    norm_num
  · exact (h6 (fun h => absurd h.2 (by omega))).2.2 (fun h => absurd h.1 (hna _))

end Verif.Nav
