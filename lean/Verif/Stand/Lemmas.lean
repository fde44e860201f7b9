import Verif.Stand.Spec
import Verif.Nav.KnnProps
import Verif.Post.StopProps
import Verif.Same.Client

/-!
# Lemmas for C135: the calls of the post-processor behind the answers of a client
-/

namespace Verif.Stand

open Verif.Levels Verif.Nav
open Verif.Post (postRun PostOp SameBox NamedLevels lastMotion lastShown)
open Verif.Geo (XYPoint)
open Verif.Knn (Result)

theorem snoc_split {α : Type} {l : List α} {x : α} {a : List α} {e : α} {b : List α} (h : l ++ [x] = a ++ e :: b) :
    (b = [] ∧ l = a ∧ x = e) ∨ ∃ b', b = b' ++ [x] ∧ l = a ++ e :: b' := by
  cases b using List.reverseRecOn with
  | nil =>
    obtain ⟨h1, h2⟩ := List.append_inj' h rfl
    cases h2
    exact .inl ⟨rfl, h1, rfl⟩
  | append_singleton b' y _ =>
    have h' : l ++ [x] = (a ++ e :: b') ++ [y] := by rw [h]; simp
    obtain ⟨h1, h2⟩ := List.append_inj' h' rfl
    cases h2
    exact .inr ⟨b', rfl, h1⟩

theorem lastShown_snoc_yes {L : List Entry} {e : Entry} (h : Shows e) : LastShown (L ++ [e]) e := ⟨L, [], rfl, h, by simp⟩

theorem lastShown_snoc_no {L : List Entry} {a e : Entry} (h : ¬ Shows e) (ha : LastShown L a) : LastShown (L ++ [e]) a := by
  obtain ⟨x, y, rfl, h1, h2⟩ := ha
  refine ⟨x, y ++ [e], by simp, h1, fun z hz => ?_⟩
  rcases List.mem_append.mp hz with hz | hz
  · exact h2 z hz
  · rw [List.mem_singleton] at hz; rw [hz]; exact h

theorem lastShown_unique {L : List Entry} : ∀ {a b : Entry}, LastShown L a → LastShown L b → a = b := by
  induction L using List.reverseRecOn with
  | nil => rintro a b ⟨x, y, h, -⟩; simp at h
  | append_singleton L z ih =>
    rintro a b ⟨x, y, h1, h2, h3⟩ ⟨x', y', h1', h2', h3'⟩
    rcases snoc_split h1 with ⟨rfl, -, rfl⟩ | ⟨v, rfl, rfl⟩ <;> rcases snoc_split h1' with ⟨rfl, -, rfl⟩ | ⟨v', rfl, e⟩
    · rfl
    · exact absurd h2 (h3' _ (by simp))
    · exact absurd h2' (h3 _ (by simp))
    · exact ih ⟨x, v, rfl, h2, fun q hq => h3 q (by simp [hq])⟩ ⟨x', v', e, h2', fun q hq => h3' q (by simp [hq])⟩

/-- The state of the client and the calls of its post-processor after the messages of the log. -/
structure Told (lv : Level) (c : Cfg) (L : List Entry) (ops : List PostOp) (s : State) : Prop where
  run : ∃ outs, postRun c.cs c.env.allowed ops = some (s.post, outs) ∧
    (∀ p, lastShown outs = some p → ∃ a, LastShown L a ∧ At lv a p.toXY) ∧ (lastShown outs = none → ∀ e ∈ L, ¬ Shows e)
  box : SameBox lv.geometry.boundingBox ops
  named : NamedLevels ops
  motion : ∀ a e b, L = a ++ e :: b → Steps e → (∀ x ∈ b, ¬ Steps x) → lastMotion ops = e.1
  known : s.level.history.isInitialized = true → s.level.history.current = lv.id
  unknown : s.level.history.isInitialized = false → s.level.history.current = ""
  used : (∃ e ∈ L, e.2.1.status ≠ .NO_LEVEL) → s.level.history.isInitialized = true
  quiet : (∀ e ∈ L, e.2.1.status = .NO_LEVEL) → s.position.isEmpty = true
  inside : s.post.outdoorPos.isEmpty = true
  outdoor : s.outdoor.last.isEmpty = true

theorem told_init (lv : Level) (c : Cfg) (g : Garbage) : Told lv c [] [] (init c g) where
  run := ⟨[], rfl, (fun p h => by simp [lastShown] at h), (fun _ => by simp)⟩
  box := fun _ _ _ _ h => by simp at h
  named := fun _ _ _ _ h => by simp at h
  motion := fun a e b h => by simp at h
  known := fun h => by cases h
  unknown := fun _ => rfl
  used := fun ⟨e, he, _⟩ => by simp at he
  quiet := fun _ => rfl
  inside := rfl
  outdoor := rfl

/-- The motion time of a message is its time if a step is reported, and zero otherwise. -/
theorem motion_steps {f : Fusion.FusionConfig} {s : Fusion.FusionState} {m : SensorMeasurement} {t : Int}
    {r : Fusion.FusionState × Fusion.MotionInfo} (h : Fusion.calculateDisplacement f s m t = some r) :
    (0 < r.2.stepCounter ∧ r.2.lastMotionTs = t) ∨ (r.2.stepCounter = 0 ∧ r.2.lastMotionTs = 0) := by
  unfold Fusion.calculateDisplacement at h
  split at h
  · cases h
  · split at h
    · cases h
    · rename_i ped steps _
      dsimp only at h
      split_ifs at h with h1 <;> simp only [Option.some.injEq] at h <;> subst h
      all_goals first
        | exact .inr ⟨rfl, rfl⟩
        | (refine .inl ⟨?_, rfl⟩
           have : 0 < steps.length := by
             rcases steps with _ | ⟨x, xs⟩
             · simp at h1
             · simp
           dsimp only
           omega)

theorem no_location {g : Garbage} {ms : List Measurement} (h : NoFixes g ms) : (lastSensor g.sensor ms).data.type ≠ .LOCATION := by
  induction ms using List.reverseRecOn with
  | nil => exact h.1
  | append_singleton ms m ih =>
    rw [lastSensor_snoc]
    have := ih ⟨h.1, fun e he => h.2 e (by simp [he])⟩
    cases hm : m.data with
    | sensor d => exact h.2 m (by simp) d hm
    | radio d => exact this
    | nmea d => exact this

/-- One more message: without a known floor nothing happens to the post-processor; with one, it fuses and processes. -/
theorem told_step {lv : Level} {c : Cfg} (hc : Client [lv] c) (hp : Stops c.cs) {g : Garbage} {ms : List Measurement} {s : State}
    (ht : Traced [lv] c g ms s) {L : List Entry} {ops : List PostOp} (hT : Told lv c L ops s) {m : Measurement} (hts : 0 < m.ts)
    (hloc : (lastSensor g.sensor (ms ++ [m])).data.type ≠ .LOCATION)
    (hfr : (∃ e ∈ L, e.2.1.status ≠ .NO_LEVEL) → Fresh [lv] c.cs ms m) {s' : State} {r : Output × DebugState}
    (hs : step c s m = .ok (s', r)) :
    (r.1.status = .NO_LEVEL ∧ Told lv c (L ++ [(m.ts, r)]) ops s') ∨
    (r.1.status ≠ .NO_LEVEL ∧ ∃ i o st f mo, f = s'.post.indoorPos ∧ r.2.indoorPosition = f.toXY ∧
      (¬ Shows (m.ts, r) → Blank r.1) ∧
      (∃ outs q, postRun c.cs c.env.allowed (ops ++ [.fuse m.ts i o st, .process f m.ts mo lv]) = some (s'.post, q :: outs) ∧
        (Shows (m.ts, r) ↔ q.isEmpty = false) ∧ (Shows (m.ts, r) → At lv (m.ts, r) q.toXY)) ∧
      Told lv c (L ++ [(m.ts, r)]) (ops ++ [.fuse m.ts i o st, .process f m.ts mo lv]) s') := by
  obtain ⟨ht', x, l, hst, hdbg⟩ := traced_step hc ht hs
  obtain ⟨h0, -, -, -, -, -, h7, ⟨d, h8, h9⟩, h10⟩ := sense_parts hst.sense
  obtain ⟨-, -, f3, f4⟩ := locate_frame hst.locate
  have hid : lv.id ≠ "" := hc.map.named lv (by simp)
  rw [hp.barometer] at h9
  unfold LevelEst.calculateLevel at h9
  simp only [Bool.false_eq_true, if_false, Prod.mk.injEq] at h9
  obtain ⟨g1, g2⟩ := h9
  have g2' : s'.level.history = (LevelEst.detectLevelUsingHistory s.level.history d).2 := by
    rw [hst.state, f3, ← g2]
  have hd : d = "" ∨ d = lv.id := by
    obtain ⟨d', e1, e2⟩ := detect_ok hc x.radio
    rw [h8, Option.some.injEq] at e1
    subst e1
    rcases e2 with e2 | ⟨⟨l', hl', e2⟩, -⟩
    · exact .inl e2
    · rw [List.mem_singleton] at hl'
      subst hl'
      exact .inr e2.symm
  have hhist : (s'.level.history.isInitialized = true → s'.level.history.current = lv.id) ∧
      (s'.level.history.isInitialized = false → s'.level.history.current = "") ∧
      (s.level.history.isInitialized = true → s'.level.history.isInitialized = true) ∧ x.levelId = s'.level.history.current := by
    rw [g2', ← g1]
    rcases hd with rfl | rfl
    · have e0 : LevelEst.detectLevelUsingHistory s.level.history "" = (s.level.history.current, s.level.history) := by
        simp [LevelEst.detectLevelUsingHistory]
      rw [e0]
      exact ⟨hT.known, hT.unknown, fun h => h, rfl⟩
    · obtain ⟨e1, e2, e3⟩ := history_same (h := s.level.history) hid hT.known
      rw [e1, e2, e3]
      exact ⟨fun _ => rfl, fun h => (by cases h), fun _ => rfl, rfl⟩
  obtain ⟨k1, k2, k3, k5⟩ := hhist
  have hto : timedOutLevel c x = "" ∨ timedOutLevel c x = x.levelId := by
    unfold timedOutLevel
    dsimp only
    split_ifs <;> first | exact .inl rfl | exact .inr rfl
  have hmot := motion_steps h0
  dsimp only at hmot
  have hcount : r.2.stepCounter = x.info.stepCounter := by rw [hdbg]; rfl
  obtain ⟨o1, -⟩ := Estim.outdoor_step c.cs c.levels s.outdoor
    ⟨m.ts, (Radio.updateMeasurements c.pre s.pre m).sensor, (Radio.updateMeasurements c.pre s.pre m).nmea, s.flagIndoorPos⟩ _ _ h10
  obtain ⟨o2, o3⟩ := o1 (by
    intro h
    apply hloc
    rw [lastSensor_snoc, ← ht.sensor, ← update_sensor c.pre]
    exact h)
  have hout : s'.outdoor.last.isEmpty = true := by rw [hst.state, f4, o2]; exact hT.outdoor
  have hoe : x.outdoorPos.isEmpty = true := by
    rw [o3]
    split_ifs
    · rfl
    · exact hT.outdoor
  obtain ⟨sh1, -, sh3⟩ := stepped_shows hc hst
  by_cases htl : timedOutLevel c x = ""
  · -- no floor
    have hun : ∀ e ∈ L, e.2.1.status = .NO_LEVEL := by
      by_contra hne
      push Not at hne
      have := fresh_level hc hp.noAction ht (hfr hne) hst.sense
      rw [htl, k5, k1 (k3 (hT.used hne))] at this
      exact hid this.symm
    obtain ⟨-, a2, -, -, a5⟩ := locate_nowhere hc hst.locate htl
    rw [← hst.state] at a2 a5
    rcases a5 with ⟨a, -⟩ | ⟨-, a, b⟩
    · rw [hoe] at a; cases a
    have hpos : s'.position.isEmpty = true := by rw [a]; exact hT.quiet hun
    have hstat : r.1.status = .NO_LEVEL := by
      rw [sh3 hpos, b]
      rfl
    have hnsh : ¬ Shows (m.ts, r) := by intro h; unfold Shows at h; rw [hstat] at h; cases h
    have hnst : ¬ Steps (m.ts, r) := fun h => h.2 hstat
    refine .inl ⟨hstat, ⟨?_, hT.box, hT.named, ?_, k1, k2, ?_, fun _ => hpos, by rw [a2]; exact hT.inside, hout⟩⟩
    · obtain ⟨outs, r1, r2, r3⟩ := hT.run
      refine ⟨outs, by rw [a2]; exact r1, fun p hp => ?_, fun hn e he => ?_⟩
      · obtain ⟨a, ha, hb⟩ := r2 p hp
        exact ⟨a, lastShown_snoc_no hnsh ha, hb⟩
      · rcases List.mem_append.mp he with he | he
        · exact r3 hn e he
        · rw [List.mem_singleton] at he; rw [he]; exact hnsh
    · intro a e b hab he hb
      rcases snoc_split hab with ⟨rfl, -, rfl⟩ | ⟨b', rfl, hL⟩
      · exact absurd he hnst
      · exact hT.motion a e b' hL he (fun y hy => hb y (by simp [hy]))
    · rintro ⟨e, he, hne⟩
      rcases List.mem_append.mp he with he | he
      · exact absurd (hun e he) hne
      · rw [List.mem_singleton] at he; subst he; exact absurd hstat hne
  · -- a floor
    have hlv : timedOutLevel c x = lv.id := by
      rcases hto with h | h
      · exact absurd h htl
      · rw [h, k5]
        cases hi : s'.level.history.isInitialized with
        | true => exact k1 hi
        | false => rw [h, k5, k2 hi] at htl; exact absurd rfl htl
    have hinit : s'.level.history.isInitialized = true := by
      cases hi : s'.level.history.isInitialized with
      | true => rfl
      | false =>
        rcases hto with h | h
        · exact absurd h htl
        · rw [h, k5, k2 hi] at htl; exact absurd rfl htl
    obtain ⟨lv', i, p, ph, ha⟩ := locate_level hc ht.inv hst.sensed ⟨lv, by simp, hlv.symm⟩
    have : lv' = lv := by simpa using ha.mem
    subst this
    have hl := ha.located
    rw [hst.locate] at hl
    simp only [Result.ok.injEq] at hl
    have hs' : s'.post = p.2 ∧ s'.position = p.1 ∧ l.status = i.1 := by
      rw [hst.state, hl]
      exact ⟨rfl, rfl, rfl⟩
    obtain ⟨q1, q2, q3⟩ := hs'
    have hpr := ha.processed
    have htame := ha.tame
    rw [h7] at hpr htame
    generalize hfp : Post.fusePositions c.cs s.post m.ts i.2.1 x.outdoorPos i.1 = fp at hpr htame
    have hfr2 := Post.process_frame hpr
    have hfused : fp.1 = s'.post.indoorPos ∧ s'.post.outdoorPos.isEmpty = true := by
      rw [q1, hfr2.1, hfr2.2.1, ← hfp]
      unfold Post.fusePositions
      dsimp only
      have e2 : ∀ z, Post.fillOutdoor c.cs z x.outdoorPos = z := by
        intro z; unfold Post.fillOutdoor; rw [if_pos hoe]
      rw [e2]
      have e3 : (Post.fillIndoor c.cs s.post i.2.1).outdoorPos.isEmpty = true := by
        unfold Post.fillIndoor
        split_ifs <;> exact hT.inside
      refine ⟨?_, e3⟩
      unfold Post.chooseFused
      rw [if_neg (by rw [hoe]; simp)]
      split_ifs with c1 c2
      · unfold Post.fillIndoor
        rw [if_neg (by rw [c1.2.1]; simp)]
      all_goals first | rfl | skip
      all_goals exact absurd (.inr e3) c2
    obtain ⟨outs, r1, r2, r3⟩ := hT.run
    have hrun : postRun c.cs c.env.allowed (ops ++ [.fuse m.ts i.2.1 x.outdoorPos i.1, .process fp.1 m.ts x.info.lastMotionTs lv']) =
        some (s'.post, p.1 :: outs) := by
      have e1 : ops ++ [PostOp.fuse m.ts i.2.1 x.outdoorPos i.1, .process fp.1 m.ts x.info.lastMotionTs lv'] =
          (ops ++ [PostOp.fuse m.ts i.2.1 x.outdoorPos i.1]) ++ [.process fp.1 m.ts x.info.lastMotionTs lv'] := by simp
      rw [e1, Post.postRun_append, Post.postRun_append, r1]
      simp only [Option.bind_some, Post.postStep, Option.map_some, hfp, hpr, Post.recordOut, q1]
    have hstat : r.1.status ≠ .NO_LEVEL := by
      rcases sh1 with ⟨h1, h2, -⟩ | ⟨-, h2, -⟩
      · rw [sh3 h1, q3]
        rcases ha.usual with h | h | h <;> rw [h] <;> simp
      · rw [h2]; simp
    have hshow : Shows (m.ts, r) ↔ p.1.isEmpty = false := by
      rw [← q2]
      rcases sh1 with ⟨h1, h2, -⟩ | ⟨h1, h2, -⟩
      · exact ⟨fun h => absurd h h2, fun h => by rw [h1] at h; cases h⟩
      · exact ⟨fun _ => h1, fun _ => h2⟩
    have hat : Shows (m.ts, r) → At lv' (m.ts, r) p.1.toXY := by
      intro h
      rcases sh1 with ⟨h1, h2, -⟩ | ⟨h1, h2, l', hl', e1, e2, e3, e4, -⟩
      · exact absurd h h2
      · rw [List.mem_singleton] at hl'
        subst hl'
        unfold At
        rw [e3, e4, q2]
    have hmotion : lastMotion (ops ++ [.fuse m.ts i.2.1 x.outdoorPos i.1, .process fp.1 m.ts x.info.lastMotionTs lv']) =
        if x.info.lastMotionTs > 0 then x.info.lastMotionTs else lastMotion ops := by
      simp [lastMotion, List.foldl_append]
    refine .inr ⟨hstat, i.2.1, x.outdoorPos, i.1, fp.1, x.info.lastMotionTs, hfused.1, ?_, ?_, ⟨outs, p.1, hrun, hshow, hat⟩,
      ⟨⟨p.1 :: outs, hrun, ?_, ?_⟩, ?_, ?_, ?_, k1, k2, fun _ => hinit, ?_, hfused.2, hout⟩⟩
    · rw [hdbg, hfused.1]; rfl
    · intro h
      rcases sh1 with ⟨-, -, h1⟩ | ⟨-, h1, -⟩
      · exact h1
      · exact absurd h1 h
    · intro q hq
      cases he : p.1.isEmpty with
      | false =>
        simp only [lastShown, List.find?_cons, he, Bool.not_false, Option.some.injEq] at hq
        rw [← hq]
        exact ⟨_, lastShown_snoc_yes (hshow.mpr he), hat (hshow.mpr he)⟩
      | true =>
        simp only [lastShown, List.find?_cons, he, Bool.not_true] at hq
        obtain ⟨a, b1, b2⟩ := r2 q hq
        exact ⟨a, lastShown_snoc_no (fun h => by rw [hshow.mp h] at he; cases he) b1, b2⟩
    · intro hn e he
      cases hpe : p.1.isEmpty with
      | false => simp [lastShown, List.find?_cons, hpe] at hn
      | true =>
        simp only [lastShown, List.find?_cons, hpe, Bool.not_true] at hn
        rcases List.mem_append.mp he with he | he
        · exact r3 hn e he
        · rw [List.mem_singleton] at he
          rw [he]
          exact fun h => by rw [hshow.mp h] at hpe; cases hpe
    · intro f t mo l' hm
      rcases List.mem_append.mp hm with hm | hm
      · exact hT.box f t mo l' hm
      · simp only [List.mem_cons, reduceCtorEq, PostOp.process.injEq, List.not_mem_nil, or_false, false_or] at hm
        rw [hm.2.2.2]
    · intro f t mo l' hm hne
      rcases List.mem_append.mp hm with hm | hm
      · exact hT.named f t mo l' hm hne
      · simp only [List.mem_cons, reduceCtorEq, PostOp.process.injEq, List.not_mem_nil, or_false, false_or] at hm
        rw [hm.1] at hne ⊢
        obtain ⟨⟨l2, hl2, e⟩, -⟩ := htame.level hne
        rw [← e]
        exact hc.map.named l2 hl2
    · intro a e b hab he hb
      rw [hmotion]
      rcases snoc_split hab with ⟨rfl, -, rfl⟩ | ⟨b', rfl, hL⟩
      · rcases hmot with ⟨-, h⟩ | ⟨h, -⟩
        · rw [h, if_pos hts]
        · have := he.1
          dsimp only at this
          rw [hcount, h] at this
          exact absurd this (lt_irrefl _)
      · rcases hmot with ⟨h, -⟩ | ⟨-, h⟩
        · exact absurd ⟨by dsimp only; rw [hcount]; exact h, hstat⟩ (hb (m.ts, r) (by simp))
        · rw [h, if_neg (lt_irrefl _)]
          exact hT.motion a e b' hL he (fun y hy => hb y (by simp [hy]))
    · intro h
      exact absurd (h (m.ts, r) (by simp)) hstat

end Verif.Stand
