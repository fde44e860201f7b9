import Verif.Stand.AnswerLemmas

/-!
# C136: what a client with zones answers that detects stops
-/

namespace Verif.Stand

open Verif.Levels Verif.Nav
open Verif.Geo (XYPoint)
open Verif.Knn (Result)
open Verif.Mixed (Fix zoneFix ZoneLaw HoldsFix Holds zoneFix_eq)

theorem memory_snoc (lv : Level) (cs : CommonSettings) (a b : ℝ) {ms : List Measurement} {steps : List Bool}
    (h : ms.length = steps.length) (m : Measurement) (x : Bool) :
    memory lv cs a b (ms ++ [m]) (steps ++ [x]) = (memory lv cs a b ms steps).after lv cs a b m x := by
  unfold memory
  rw [List.zip_append h, List.foldl_append]
  rfl

/-- The state of the client and its memory. -/
structure Holding (lv : Level) (c : Cfg) (v : Memory) (s : State) : Prop where
  buffer : BufferedOn c.cs v.win v.step s.pre.buffer
  pending : ∀ h ∈ v.win.pending, Radio.Admissible [lv] c.cs h.data
  signal : ∀ t, v.heard = some t → s.pre.lastSignalTs = t
  silent : v.heard = none → v.win.closed = none
  before : v.win.closed = none → s.level.history.isInitialized = false ∧ s.level.history.current = ""
  after : v.win.closed ≠ none → s.level.history.isInitialized = true ∧ s.level.history.current = lv.id
  post : PostHolds lv v s.post
  answer : HoldsAnswer lv s.position v.answer
  outdoor : s.outdoor.last.isEmpty = true

theorem holding_init (lv : Level) (c : Cfg) (hp : StopZones c.cs) (g : Garbage) : Holding lv c .start (init c g) where
  buffer := ⟨List.Perm.refl _, fun _ => ⟨rfl, rfl⟩, (fun t h => by cases h), stop_span hp, rfl, (fun t h => by cases h)⟩
  pending := fun h hh => by cases hh
  signal := fun t h => by cases h
  silent := fun _ => rfl
  before := fun _ => ⟨rfl, rfl⟩
  after := fun h => absurd rfl h
  post := ⟨rfl, (fun t h => by cases h), rfl, ⟨rfl, rfl, (fun r h => by cases h)⟩, rfl, rfl⟩
  answer := ⟨rfl, fun q r h => by cases h⟩
  outdoor := rfl

/-- The status behind an empty answer. -/
structure Reason (lv : Level) (cs : CommonSettings) (v : Memory) (m : Measurement) (stepped : Bool) (st : NavigationStatus) : Prop where
  away : ¬ (v.sense lv cs m stepped).InUse cs m.ts → st = .NO_LEVEL
  closes : (v.sense lv cs m stepped).InUse cs m.ts → v.Closes lv cs m → st = .OK
  waits : (v.sense lv cs m stepped).InUse cs m.ts → ¬ v.Closes lv cs m → st = .NO_SOLUTION

theorem holding_step {lv : Level} {c : Cfg} (hc : Client [lv] c) (hp : StopZones c.cs) {a b : ℝ} (hlaw : ZoneLaw c lv a b) {g : Garbage}
    {ms : List Measurement} {s : State} (ht : Traced [lv] c g ms s) {v : Memory} (hz : Holding lv c v s) {m : Measurement} (hts : 0 < m.ts)
    (hloc : (lastSensor g.sensor (ms ++ [m])).data.type ≠ .LOCATION) {s' : State} {out : Output} {x : Sensed} {l : Located}
    (hst : Stepped [lv] c s m s' out x l) {stepped : Bool} (hstep : stepped = decide (0 < x.info.stepCounter)) :
    Holding lv c (v.after lv c.cs a b m stepped) s' ∧ Reason lv c.cs v m stepped l.status := by
  classical
  obtain ⟨h0, h1, h2, -, -, h6, h7, ⟨d, h8, h9⟩, h10⟩ := sense_parts hst.sense
  obtain ⟨f1, -, f3, f4⟩ := locate_frame hst.locate
  have hid : lv.id ≠ "" := hc.map.named lv (by simp)
  have hmot : x.info.lastMotionTs = if stepped then m.ts else 0 := by
    have := motion_steps h0
    dsimp only at this
    rcases this with ⟨e1, e2⟩ | ⟨e1, e2⟩
    · rw [hstep, e2]; simp [e1]
    · rw [hstep, e2]; simp [e1]
  obtain ⟨hb, hcase⟩ := stop_radio hc hp hz.buffer hts hmot h1
  rw [← h2, ← f1, ← hst.state] at hb
  rw [hp.barometer] at h9
  unfold LevelEst.calculateLevel at h9
  simp only [Bool.false_eq_true, if_false, Prod.mk.injEq] at h9
  obtain ⟨g1, g2⟩ := h9
  have g2' : s'.level.history = (LevelEst.detectLevelUsingHistory s.level.history d).2 := by
    rw [hst.state, f3, ← g2]
  obtain ⟨o1, -⟩ := Estim.outdoor_step c.cs c.levels s.outdoor
    ⟨m.ts, (Radio.updateMeasurements c.pre s.pre m).sensor, (Radio.updateMeasurements c.pre s.pre m).nmea, s.flagIndoorPos⟩ _ _ h10
  obtain ⟨o2, o3⟩ := o1 (by
    intro h
    apply hloc
    rw [lastSensor_snoc, ← ht.sensor, ← update_sensor c.pre]
    exact h)
  have hout : s'.outdoor.last.isEmpty = true := by rw [hst.state, f4, o2]; exact hz.outdoor
  have hoe : x.outdoorPos.isEmpty = true := by
    rw [o3]
    split_ifs
    · rfl
    · exact hz.outdoor
  obtain ⟨w, hw⟩ : ∃ w, w = v.sense lv c.cs m stepped := ⟨_, rfl⟩
  have w1 : w.win = takeOn [lv] c.cs (Resting c.cs (if stepped then some m.ts else v.step) m.ts) v.win m := by rw [hw]; rfl
  have w2 : w.step = if stepped then some m.ts else v.step := by rw [hw]; rfl
  have w3 : w.heard = if Heard [lv] c.cs m then some m.ts else v.heard := by rw [hw]; rfl
  have w4 : w.counted = v.counted ∧ w.zone = v.zone ∧ w.spot = v.spot ∧ w.radius = v.radius ∧ w.renewed = v.renewed ∧ w.answer = v.answer := by
    rw [hw]; exact ⟨rfl, rfl, rfl, rfl, rfl, rfl⟩
  rw [← w1] at hcase
  rw [← w1, ← w2] at hb
  have hsig : ∀ t, w.heard = some t → x.pre.lastSignalTs = t := by
    intro t h
    rw [w3] at h
    rw [h6]
    by_cases hh : Heard [lv] c.cs m
    · rw [if_pos hh, Option.some.injEq] at h
      rw [(update_heard hc s.pre m).1 hh, h]
    · rw [if_neg hh] at h
      rw [((update_heard hc s.pre m).2 hh).1, hz.signal t h]
  have hsig' : ∀ t, w.heard = some t → s'.pre.lastSignalTs = t := by
    intro t h
    rw [hst.state, f1]; exact hsig t h
  have hto := timedOut_eq ht.inv (by rw [hc.parts.noAction]; have := hp.noAction; omega) hst.sense
  rw [hc.parts.noSignal] at hto
  have hafter : v.after lv c.cs a b m stepped =
      if w.InUse c.cs m.ts then (w.count lv a b (v.Closes lv c.cs m) m.ts stepped).display lv c.cs m.ts else w := by
    unfold Memory.after
    rw [hw]
  -- what display and count leave alone
  have hframe : ∀ u : Memory, (u.display lv c.cs m.ts).win = u.win ∧ (u.display lv c.cs m.ts).step = u.step ∧
      (u.display lv c.cs m.ts).heard = u.heard := by
    intro u
    unfold Memory.display
    split
    · exact ⟨rfl, rfl, rfl⟩
    · split_ifs <;> exact ⟨rfl, rfl, rfl⟩
  have hkeep : (v.after lv c.cs a b m stepped).win = w.win ∧ (v.after lv c.cs a b m stepped).step = w.step ∧
      (v.after lv c.cs a b m stepped).heard = w.heard := by
    rw [hafter]
    split_ifs
    · exact hframe _
    · exact ⟨rfl, rfl, rfl⟩
  obtain ⟨k1, k2, k3⟩ := hkeep
  -- the branch without a level
  have hnow : timedOutLevel c x = "" → ¬ w.InUse c.cs m.ts →
      PostHolds lv (v.after lv c.cs a b m stepped) s'.post ∧ HoldsAnswer lv s'.position (v.after lv c.cs a b m stepped).answer ∧
      Reason lv c.cs v m stepped l.status := by
    intro h hn
    obtain ⟨-, a2, -, -, a5⟩ := locate_nowhere hc hst.locate h
    rw [hafter, if_neg hn]
    rcases a5 with ⟨e, -⟩ | ⟨-, e, e'⟩
    · rw [hoe] at e; cases e
    · refine ⟨?_, ?_, ⟨fun _ => e', fun h => absurd (hw ▸ h) hn, fun h => absurd (hw ▸ h) hn⟩⟩
      · rw [hst.state, a2]
        have p := hz.post
        obtain ⟨v1, v2, v3, v4, v5, -⟩ := w4
        exact ⟨by rw [v1]; exact p.counted, by rw [v1]; exact p.positive, by rw [v2]; exact p.zone, by rw [v3, v4]; exact p.out,
          by rw [v5]; exact p.renewed, p.inside⟩
      · rw [hst.state, e, w4.2.2.2.2.2]; exact hz.answer
  -- the branch for the level
  have hat : timedOutLevel c x = lv.id → w.InUse c.cs m.ts → ∀ i st fi,
      indoorPosition c s.indoorPos lv x.pre.currentTs x.radio = .ok (st, i, s.indoorPos) →
      HoldsFix lv .INDOOR i fi →
      (v.Closes lv c.cs m → fi ≠ none ∧ st = .OK ∧ w.win.closed.bind (fun r => zoneFix lv a b r.1 r.2) = fi) →
      (¬ v.Closes lv c.cs m → fi = none ∧ st = .NO_SOLUTION) →
      PostHolds lv (v.after lv c.cs a b m stepped) s'.post ∧ HoldsAnswer lv s'.position (v.after lv c.cs a b m stepped).answer ∧
      Reason lv c.cs v m stepped l.status := by
    intro h hin i st fi hi hfi hcl1 hcl2
    obtain ⟨lv', i', p, ph, ha⟩ := locate_level hc ht.inv hst.sensed ⟨lv, by simp, h.symm⟩
    have : lv' = lv := by simpa using ha.mem
    subst this
    have hi' := ha.indoor
    rw [hi] at hi'
    cases hi'
    have hl := ha.located
    rw [hst.locate] at hl
    have es : s'.position = p.1 ∧ s'.post = p.2 ∧ l.status = st := by
      rw [hst.state]
      cases hl
      exact ⟨rfl, rfl, rfl⟩
    have hpr := ha.processed
    rw [h7] at hpr
    generalize hfp : Post.fusePositions c.cs s.post m.ts i x.outdoorPos st = fp at hpr
    have e2 : ∀ z, Post.fillOutdoor c.cs z x.outdoorPos = z := by
      intro z; unfold Post.fillOutdoor; rw [if_pos hoe]
    have e4 : fp.2 = Post.fillIndoor c.cs s.post i := by
      rw [← hfp]; unfold Post.fusePositions; dsimp only; rw [e2]
    have e3 : (Post.fillIndoor c.cs s.post i).outdoorPos.isEmpty = true := by
      unfold Post.fillIndoor
      split_ifs <;> exact hz.post.inside
    have e1 : fp.1 = fp.2.indoorPos := by
      rw [e4, ← hfp]
      unfold Post.fusePositions
      dsimp only
      rw [e2]
      unfold Post.chooseFused
      rw [if_neg (by rw [hoe]; simp)]
      split_ifs with c1 c2
      · unfold Post.fillIndoor
        rw [if_neg (by rw [c1.2.1]; simp)]
      all_goals first | rfl | exact absurd (.inr e3) c2
    rw [e1] at hpr
    -- the memory with the new zone
    have hph : PostHolds lv' ({ w with zone := if v.Closes lv' c.cs m then w.win.closed.bind (fun r => zoneFix lv' a b r.1 r.2) else w.zone } : Memory) fp.2 := by
      obtain ⟨v1, v2, v3, v4, v5, -⟩ := w4
      have q := hz.post
      rw [e4]
      have hfr : (Post.fillIndoor c.cs s.post i).lastStepTs = s.post.lastStepTs ∧ (Post.fillIndoor c.cs s.post i).lastOut = s.post.lastOut ∧
          (Post.fillIndoor c.cs s.post i).lastExtractionTs = s.post.lastExtractionTs ∧
          (Post.fillIndoor c.cs s.post i).indoorPos = (if i.isEmpty then s.post.indoorPos else i) := by
        unfold Post.fillIndoor
        split_ifs <;> exact ⟨rfl, rfl, rfl, rfl⟩
      refine ⟨by rw [hfr.1]; dsimp only; rw [v1]; exact q.counted, by dsimp only; rw [v1]; exact q.positive, ?_,
        by rw [hfr.2.1]; dsimp only; rw [v3, v4]; exact q.out, by rw [hfr.2.2.1]; dsimp only; rw [v5]; exact q.renewed, e3⟩
      rw [hfr.2.2.2]
      dsimp only
      by_cases hcl : v.Closes lv' c.cs m
      · obtain ⟨n1, -, n3⟩ := hcl1 hcl
        rw [if_pos hcl, n3]
        obtain ⟨f, hf⟩ := Option.ne_none_iff_exists'.mp n1
        rw [hf] at hfi ⊢
        have hfi' : Holds lv' .INDOOR f i := hfi
        rw [if_neg (by rw [hfi'.isEmpty]; simp)]
        exact hfi'
      · obtain ⟨n1, -⟩ := hcl2 hcl
        rw [n1] at hfi
        have hfi' : i.isEmpty = true := hfi
        rw [if_neg hcl, if_pos hfi', v2]
        exact q.zone
    obtain ⟨r1, r2⟩ := displayed hp hph hts hmot hpr
    have hd : v.after lv' c.cs a b m stepped = ({ ({ w with zone := if v.Closes lv' c.cs m then w.win.closed.bind (fun r => zoneFix lv' a b r.1 r.2) else w.zone } : Memory) with counted := if stepped then some m.ts else w.counted } : Memory).display lv' c.cs m.ts := by
      rw [hafter, if_pos hin]
      rfl
    rw [hd, es.1, es.2.1]
    refine ⟨r1, r2, ⟨fun hn => absurd (hw ▸ hin) hn, fun _ hcl => ?_, fun _ hcl => ?_⟩⟩
    · rw [es.2.2]; exact (hcl1 hcl).2.1
    · rw [es.2.2]; exact (hcl2 hcl).2
  rcases hcase with ⟨hr, hncl, hcl, hpe⟩ | ⟨hclose, dd, win, hd, had, hwin, hcl, hpe, hho⟩
  · -- nothing is handed out
    have hncl' : ¬ v.Closes lv c.cs m := hncl
    rw [hr, detect_nothing hc] at h8
    cases h8
    have e0 : LevelEst.detectLevelUsingHistory s.level.history "" = (s.level.history.current, s.level.history) := by
      simp [LevelEst.detectLevelUsingHistory]
    rw [e0] at g1 g2'
    dsimp only at g1 g2'
    have hpend : ∀ h ∈ w.win.pending, Radio.Admissible [lv] c.cs h.data := by
      intro h hm
      rcases hpe h hm with hm | ⟨d, -, had, rfl⟩
      · exact hz.pending h hm
      · exact had
    have hbefore : w.win.closed = none → s'.level.history.isInitialized = false ∧ s'.level.history.current = "" := by
      intro hnone
      rw [hcl] at hnone
      rw [g2']
      exact hz.before hnone
    have hafter' : w.win.closed ≠ none → s'.level.history.isInitialized = true ∧ s'.level.history.current = lv.id := by
      intro hne
      rw [hcl] at hne
      rw [g2']
      exact hz.after hne
    have hsil : w.heard = none → w.win.closed = none := by
      intro h
      rw [hcl]
      apply hz.silent
      rw [w3] at h
      split_ifs at h
      exact h
    have hlast : PostHolds lv (v.after lv c.cs a b m stepped) s'.post ∧ HoldsAnswer lv s'.position (v.after lv c.cs a b m stepped).answer ∧
        Reason lv c.cs v m stepped l.status := by
      by_cases hin : w.InUse c.cs m.ts
      · obtain ⟨hne, t, hh, hlt⟩ := hin
        have hlv : timedOutLevel c x = lv.id := by
          rw [hto, hsig t hh, if_neg (by omega), ← g1]
          rw [hcl] at hne
          exact (hz.after hne).2
        exact hat hlv ⟨hne, t, hh, hlt⟩ Position.default .NO_SOLUTION none (by rw [hr]; exact handed_nothing hc hp.toByZones _ _)
          Outdoor.default_empty (fun h => absurd h hncl') (fun _ => ⟨rfl, rfl⟩)
      · refine hnow ?_ hin
        rw [hto]
        by_cases hnone : w.win.closed = none
        · rw [hcl] at hnone
          split_ifs
          · rfl
          · rw [← g1]; exact (hz.before hnone).2
        · cases hh : w.heard with
          | none => exact absurd (hsil hh) hnone
          | some t =>
            rw [hsig t hh, if_pos]
            by_contra hlt
            exact hin ⟨hnone, t, hh, by omega⟩
    exact ⟨⟨by rw [k1, k2]; exact hb, by rw [k1]; exact hpend, by rw [k3]; exact hsig', by rw [k1, k3]; exact hsil,
      by rw [k1]; exact hbefore, by rw [k1]; exact hafter', hlast.1, hlast.2.1, hout⟩, hlast.2.2⟩
  · -- a window is closed
    have hheard : Heard [lv] c.cs m := ⟨dd, hd, had⟩
    have hcloses : v.Closes lv c.cs m := ⟨hheard, hclose⟩
    have hadm : ∀ h ∈ win, Radio.Admissible [lv] c.cs h.data := by
      intro h hm
      rw [hwin] at hm
      rcases List.mem_append.mp hm with hm | hm
      · exact hz.pending h hm
      · rw [List.mem_singleton] at hm
        rw [hm]; exact had
    have hne : win ≠ [] := by rw [hwin]; simp
    rw [handed_level hc hp.toByZones hho hne hadm] at h8
    cases h8
    obtain ⟨e1, e2, e3⟩ := history_same (h := s.level.history) hid (by
      intro hi
      by_cases hw : v.win.closed = none
      · rw [(hz.before hw).1] at hi; cases hi
      · exact (hz.after hw).2)
    have hh : w.heard = some m.ts := by rw [w3, if_pos hheard]
    have hin : w.InUse c.cs m.ts := ⟨by rw [hcl]; simp, m.ts, hh, by have := hp.noSignal; omega⟩
    have hlv : timedOutLevel c x = lv.id := by
      rw [hto, hsig _ hh, if_neg (by have := hp.noSignal; omega), ← g1, e1]
    obtain ⟨q, id, t, hq, hzone⟩ := handed_zone hc hp.toByZones hho hne hadm s.indoorPos x.pre.currentTs
    rw [h7] at hzone
    have hrf : w.win.closed.bind (fun r => zoneFix lv a b r.1 r.2) =
        some ⟨⟨t.point.x, t.point.y⟩, Real.exp ((a - meanRssi win id) / (2 * b)) + 1, m.ts⟩ := by
      rw [hcl, Option.bind_some]
      exact zoneFix_eq hzone.strongest hzone.tx a b m.ts
    obtain ⟨A, B, l1, l2, l3, l4⟩ := hlaw
    have hlast := hat hlv hin q .OK (some ⟨⟨t.point.x, t.point.y⟩, Real.exp ((a - meanRssi win id) / (2 * b)) + 1, m.ts⟩) hq
      (show Holds lv .INDOOR ⟨⟨t.point.x, t.point.y⟩, Real.exp ((a - meanRssi win id) / (2 * b)) + 1, m.ts⟩ q from
        ⟨hzone.x, hzone.y, hzone.levelId, (hzone.formula A B a b l1 l2 l3 l4).2, hzone.ts, hzone.isEmpty, hzone.provider⟩)
      (fun _ => ⟨by simp, rfl, hrf⟩) (fun h => absurd hcloses h)
    refine ⟨⟨by rw [k1, k2]; exact hb, by rw [k1]; exact fun h hm => hadm h (hpe h hm), by rw [k3]; exact hsig', ?_, ?_, ?_,
      hlast.1, hlast.2.1, hout⟩, hlast.2.2⟩
    · rw [k3, hh]; intro h; cases h
    · rw [k1, hcl]; intro h; cases h
    · intro _
      rw [g2']
      exact ⟨e3, e2⟩

theorem answer_tells {lv : Level} {p : Position} {an : Option (XYPoint × ℝ)} {out : Output} (ha : HoldsAnswer lv p an)
    (hsh : Nav.Shows [lv] p out) : Tells lv an out := by
  unfold Tells
  cases an with
  | none =>
    rcases hsh with ⟨-, e1, e2⟩ | ⟨e, -⟩
    · exact ⟨e2, e1⟩
    · rw [ha.isEmpty] at e; cases e
  | some pr =>
    obtain ⟨p, r⟩ := pr
    obtain ⟨q1, q2, q3, q4⟩ := ha.shown p r rfl
    rcases hsh with ⟨e, -⟩ | ⟨-, hok, lv', hlv', hid, e1, e2, e3, e4, e5⟩
    · rw [ha.isEmpty] at e; cases e
    have : lv' = lv := by simpa using hlv'
    subst this
    exact ⟨hok, by rw [e1, q2], by rw [e5, q4], by rw [e4, q3], by rw [e2, e3, q1]⟩

theorem holding_runs {lv : Level} {c : Cfg} (hc : Client [lv] c) (hp : StopZones c.cs) {a b : ℝ} (hlaw : ZoneLaw c lv a b) {g : Garbage}
    {ms : List Measurement} (hts : ∀ m ∈ ms, 0 < m.ts) (hfix : NoFixes g ms) {s : State} {outs : List (Output × DebugState)}
    (h : runs c (init c g) ms = .ok (s, outs)) : Holding lv c (memory lv c.cs a b ms (stepsOf outs)) s := by
  induction ms using List.reverseRecOn generalizing s outs with
  | nil => cases h; exact holding_init lv c hp g
  | append_singleton ms m ih =>
    obtain ⟨s1, outs1, r, h1, h2, h3⟩ := runs_snoc h
    have hz := ih (fun m hm => hts m (by simp [hm])) ⟨hfix.1, fun e he => hfix.2 e (by simp [he])⟩ h1
    have ht := traced_runs hc g ms h1
    obtain ⟨-, x, l, hst, hdbg⟩ := traced_step hc ht h2
    have hlen : ms.length = (stepsOf outs1).length := by
      unfold stepsOf; rw [List.length_map]; exact (runs_length _ _ _ _ _ h1).symm
    have e : stepsOf outs = stepsOf outs1 ++ [decide (0 < r.2.stepCounter)] := by
      rw [h3]; simp [stepsOf]
    rw [e, memory_snoc _ _ _ _ hlen]
    exact (holding_step hc hp hlaw ht hz (hts m (by simp)) (no_location hfix) hst (by rw [hdbg]; rfl)).1

/-- The answer to one more message. -/
theorem answers_step {lv : Level} {c : Cfg} (hc : Client [lv] c) (hp : StopZones c.cs) {a b : ℝ} (hlaw : ZoneLaw c lv a b) {g : Garbage}
    {ms : List Measurement} {s s' : State} {outs : List (Output × DebugState)} {m : Measurement} {r : Output × DebugState}
    (hts : ∀ e ∈ ms ++ [m], 0 < e.ts) (hfix : NoFixes g (ms ++ [m])) (h : runs c (init c g) ms = .ok (s, outs))
    (h2 : step c s m = .ok (s', r)) : Answers lv c.cs a b (memory lv c.cs a b ms (stepsOf outs)) m r := by
  have ht := traced_runs hc g ms h
  have hz := holding_runs hc hp hlaw (a := a) (b := b) (fun e he => hts e (by simp [he])) ⟨hfix.1, fun e he => hfix.2 e (by simp [he])⟩ h
  obtain ⟨-, x, l, hst, hdbg⟩ := traced_step hc ht h2
  obtain ⟨hz', hre⟩ := holding_step hc hp hlaw ht hz (hts m (by simp)) (no_location hfix) hst rfl
  have hcount : x.info.stepCounter = r.2.stepCounter := by rw [hdbg]; rfl
  rw [hcount] at hz' hre
  obtain ⟨hsh, -, herr⟩ := stepped_shows hc hst
  have hemp : (Memory.after lv c.cs a b (memory lv c.cs a b ms (stepsOf outs)) m (decide (0 < r.2.stepCounter))).answer = none →
      s'.position.isEmpty = true := by
    intro hnone; rw [hz'.answer.isEmpty, hnone]; rfl
  refine ⟨answer_tells hz'.answer hsh, fun z hzz => ?_, fun hn h => ?_, fun hn h h' => ?_, fun hn h h' => ?_⟩
  · have hzone := hz'.post.zone
    rw [hzz] at hzone
    have hzone' : Holds lv .INDOOR z s'.post.indoorPos := hzone
    have : r.2.indoorPosition = s'.post.indoorPos.toXY := by rw [hdbg]; rfl
    rw [this]
    simp [Position.toXY, hzone'.x, hzone'.y]
  · rw [herr (hemp hn), hre.away h]; rfl
  · rw [herr (hemp hn), hre.closes h h']; rfl
  · rw [herr (hemp hn), hre.waits h h']; rfl

/-- **C136.** A client with one floor that locates by zones and detects stops gets any history of messages with positive times
and without satellite fixes, and then one more.  What it answers is the answer of its memory, which depends only on the messages
and on those at which a step was reported. -/
theorem C136_answer {lv : Level} {c : Cfg} (hc : Client [lv] c) (hp : StopZones c.cs) {a b : ℝ} (hlaw : ZoneLaw c lv a b) (g : Garbage)
    (batches : List (List Measurement)) {s : State} {outs : List (Output × DebugState)}
    (h : navigateAll c (init c g) batches = .ok (s, outs)) (m : Measurement) (hts : ∀ e ∈ taken batches ++ [m], 0 < e.ts)
    (hfix : NoFixes g (taken batches ++ [m])) :
    ∃ s' r, navigate c s [m] = .ok (s', [r]) ∧ Answers lv c.cs a b (memory lv c.cs a b (taken batches) (stepsOf outs)) m r := by
  have ht := history_traced hc h
  rw [navigateAll_eq] at h
  obtain ⟨s', out, dbg, x, l, h1, -, -⟩ := one_parts hc ht.inv m
  have h1' := h1
  rw [navigate_eq, records_ordered [m] (List.pairwise_singleton _ _)] at h1'
  simp only [runs] at h1'
  obtain ⟨⟨s2, r⟩, k1, k2⟩ := andThen_ok h1'
  simp only [andThen, Result.ok.injEq, Prod.mk.injEq, List.cons.injEq, and_true] at k2
  refine ⟨s', (out, dbg), h1, ?_⟩
  rw [← k2.2]
  exact answers_step hc hp hlaw hts hfix h k1

/-- **C136.** So it is for every message of a session. -/
theorem C136_session {lv : Level} {c : Cfg} (hc : Client [lv] c) (hp : StopZones c.cs) {a b : ℝ} (hlaw : ZoneLaw c lv a b) (g : Garbage)
    (batches : List (List Measurement)) {s : State} {outs : List (Output × DebugState)}
    (h : navigateAll c (init c g) batches = .ok (s, outs)) (hts : ∀ e ∈ taken batches, 0 < e.ts) (hfix : NoFixes g (taken batches))
    (k : ℕ) (hk : k < (taken batches).length) :
    ∃ m r, (taken batches)[k]? = some m ∧ outs[k]? = some r ∧
      Answers lv c.cs a b (memory lv c.cs a b ((taken batches).take k) (stepsOf (outs.take k))) m r := by
  rw [navigateAll_eq] at h
  generalize taken batches = ms at *
  induction ms using List.reverseRecOn generalizing s outs k with
  | nil => exact absurd hk (Nat.not_lt_zero _)
  | append_singleton ms m ih =>
    obtain ⟨s1, outs1, r, h1, h2, rfl⟩ := runs_snoc h
    have hl : outs1.length = ms.length := runs_length _ _ _ _ _ h1
    rw [List.length_append, List.length_singleton] at hk
    by_cases hlt : k < ms.length
    · obtain ⟨m', o, o0, o1, o2⟩ := ih k h1 (fun e he => hts e (by simp [he])) ⟨hfix.1, fun e he => hfix.2 e (by simp [he])⟩ hlt
      refine ⟨m', o, by rw [List.getElem?_append_left (by omega)]; exact o0, by rw [List.getElem?_append_left (by omega)]; exact o1, ?_⟩
      rw [List.take_append_of_le_length (by omega), List.take_append_of_le_length (by omega)]
      exact o2
    · have hk' : k = ms.length := by omega
      subst hk'
      refine ⟨m, r, by simp, by rw [← hl]; simp, ?_⟩
      rw [List.take_append_of_le_length (le_refl _), List.take_append_of_le_length (by omega), List.take_of_length_le (le_refl _),
        List.take_of_length_le (by omega)]
      exact answers_step hc hp hlaw hts hfix h1 h2

end Verif.Stand
