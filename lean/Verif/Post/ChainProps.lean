import Verif.Post.ChainSpec
import Verif.Post.StopProps

/-!
# C96: the post-processor is its smoothers in series
-/

namespace Verif.Post

open Verif.Smooth
open Verif.Levels
open Verif.Geo (XYPoint)

variable {cs : CommonSettings} {allowed : Level → ℝ → ℝ → Prop}

/-! ## Lemmas -/

theorem good_iff (c : Call) : c.Good cs ↔ ¬ Rejects cs c.fused c.ts c.level := by
  unfold Call.Good Rejects isInsideMap Estim.Box.Covers Position.toXY
  simp only [not_or, not_le, ge_iff_le]
  constructor
  · rintro ⟨h1, h2, h3⟩
    exact ⟨by simp [h1], by tauto, h3⟩
  · rintro ⟨h1, h2, h3⟩
    exact ⟨by simpa using h1, by tauto, h3⟩

theorem abCalls_append (lvl : String) (l : List Call) (c : Call) :
    abCalls allowed lvl (l ++ [c]) = abCalls allowed lvl l ++
      ((if (l.getLast?.map (fun c => c.fused.levelId)).getD lvl ≠ c.fused.levelId then [.reset c.fused] else []) ++
        [.smooth c.fused (allowed c.level)]) := by
  induction l generalizing lvl with
  | nil => by_cases h : lvl = c.fused.levelId <;> simp [abCalls, h]
  | cons d l ih =>
    rw [List.cons_append, abCalls, ih]
    have : ((d :: l).getLast?.map (fun c => c.fused.levelId)).getD lvl =
        (l.getLast?.map (fun c => c.fused.levelId)).getD d.fused.levelId := by
      cases l with
      | nil => simp
      | cons e l => simp [List.getLast?_cons]
    rw [this, abCalls]
    simp

theorem lsCalls_append (lvl : String) (l : List Call) (c : Call) :
    lsCalls allowed lvl (l ++ [c]) = lsCalls allowed lvl l ++
      ((if (l.getLast?.map (fun c => c.fused.levelId)).getD lvl ≠ c.fused.levelId then [.reset c.fused] else []) ++
        [.smooth c.fused (allowed c.level)]) := by
  induction l generalizing lvl with
  | nil => by_cases h : lvl = c.fused.levelId <;> simp [lsCalls, h]
  | cons d l ih =>
    rw [List.cons_append, lsCalls, ih]
    have : ((d :: l).getLast?.map (fun c => c.fused.levelId)).getD lvl =
        (l.getLast?.map (fun c => c.fused.levelId)).getD d.fused.levelId := by
      cases l with
      | nil => simp
      | cons e l => simp [List.getLast?_cons]
    rw [this, lsCalls]
    simp

theorem abRun_append (P : AbParams) (a b : List AbOp) : abRun P (a ++ b) = b.foldl (abStep P) (abRun P a) := by
  simp [abRun]

theorem lsRun_append (P : FitParams) (ub : Bool) (t0 : Int) (a b : List LsOp) :
    lsRun P ub t0 (a ++ b) = (lsRun P ub t0 a).bind (fun s => b.foldlM (lsStep P ub) s) := by
  simp [lsRun, List.foldlM_append]

theorem lastLevel_append (l : List Call) (c : Call) : lastLevel (l ++ [c]) = c.fused.levelId := by simp [lastLevel]

theorem timeSmooth_level (t : TimeState) (p : Position) (ts : Int) : (timeSmooth t p ts).1.levelId = p.levelId := by
  unfold timeSmooth
  by_cases h1 : ts < p.ts
  · rw [if_pos h1]
  rw [if_neg h1]
  by_cases h2 : t.prev.levelId ≠ p.levelId ∨ t.next.levelId ≠ p.levelId
  · rw [if_pos h2]
  rw [if_neg h2]
  push Not at h2
  by_cases h3 : t.prev.isEmpty = true ∨ t.next.isEmpty = true ∨ p.isEmpty = true
  · rw [if_pos h3]
  rw [if_neg h3]
  dsimp only
  unfold timeInterpolate
  dsimp only
  split_ifs <;> first | rfl | exact h2.2

/-- The smoother object of the post-processor is the one that got the calls. -/
def SmootherIs (cs : CommonSettings) (allowed : Level → ℝ → ℝ → Prop) (calls : List Call) (sm : Smoother) : Prop :=
  if cs.useAbFilter = true then
    sm = .ab (abParams cs) (abRun (abParams cs) (abCalls allowed "" calls)) ∧
      (abRun (abParams cs) (abCalls allowed "" calls)).position.levelId = lastLevel calls
  else ∃ s, lsRun (lsParams cs) cs.useBarriers 0 (lsCalls allowed "" calls) = some s ∧
    sm = .ls (lsParams cs) cs.useBarriers s

theorem lsSmooth_level {P : FitParams} {ub : Bool} {al : ℝ → ℝ → Prop} {s : LsState} {p : Position} {r : Position × LsState}
    (h : lsSmooth P ub al s p = some r) : r.1.levelId = p.levelId := by
  unfold lsSmooth at h
  split_ifs at h with h1
  · cases h; rfl
  · dsimp only at h
    split at h
    · split_ifs at h
      · cases h; rfl
      · split at h <;> cases h <;> rfl
    · cases h

theorem abSmooth_level (P : AbParams) (al : ℝ → ℝ → Prop) (s : AbState) (p : Position) (h : s.position.levelId = p.levelId) :
    (abSmooth P al s p).1.levelId = p.levelId ∧ (abSmooth P al s p).2.position.levelId = p.levelId := by
  have h2 : (abSmooth P al s p).1.levelId = p.levelId := by
    unfold abSmooth
    dsimp only
    split_ifs <;> first | rfl | exact h
  exact ⟨h2, by rw [(C41_state P al s p).1]; exact h2⟩

/-- One call of the smoother. -/
theorem smoother_step {calls : List Call} {sm : Smoother} (h : SmootherIs cs allowed calls sm) (hu : cs.useSmoothing = true)
    (c : Call) {r : Position × Smoother}
    (hr : (if lastLevel calls ≠ c.fused.levelId then sm.reset c.fused else sm).smooth (allowed c.level) c.fused = some r) :
    SmoothedTo cs allowed calls c r.1 ∧ SmootherIs cs allowed (calls ++ [c]) r.2 ∧ r.1.levelId = c.fused.levelId := by
  unfold SmootherIs at h ⊢
  unfold SmoothedTo
  rw [if_neg (by simp [hu])]
  by_cases hab : cs.useAbFilter = true
  · rw [if_pos hab] at h ⊢
    rw [if_pos hab]
    obtain ⟨rfl, hl⟩ := h
    set s0 := abRun (abParams cs) (abCalls allowed "" calls) with hs0
    set s1 := abRun (abParams cs) (abCalls allowed "" calls ++ if lastLevel calls ≠ c.fused.levelId then [.reset c.fused] else [])
      with hs1
    have e1 : (if lastLevel calls ≠ c.fused.levelId then (Smoother.ab (abParams cs) s0).reset c.fused else .ab (abParams cs) s0) =
        .ab (abParams cs) s1 := by
      rw [hs1, abRun_append]
      split_ifs
      · simp [abStep, Smoother.reset, hs0]
      · simp [hs0]
    rw [e1] at hr
    simp only [Smoother.smooth, Option.some.injEq] at hr
    subst hr
    have hs1l : s1.position.levelId = c.fused.levelId := by
      rw [hs1, abRun_append]
      split_ifs with hne
      · simp [abStep, abReset]
      · push Not at hne; simp only [List.foldl_nil]; rw [← hne]; exact hl
    have e2 : abRun (abParams cs) (abCalls allowed "" (calls ++ [c])) = (abSmooth (abParams cs) (allowed c.level) s1 c.fused).2 := by
      rw [abCalls_append, ← List.append_assoc, abRun_append]
      rfl
    have hl2 := abSmooth_level (abParams cs) (allowed c.level) s1 c.fused hs1l
    refine ⟨rfl, ⟨by rw [e2], ?_⟩, hl2.1⟩
    rw [e2, lastLevel_append]
    exact hl2.2
  · rw [if_neg hab] at h ⊢
    rw [if_neg hab]
    obtain ⟨s0, hs0, rfl⟩ := h
    set s1 := (if lastLevel calls ≠ c.fused.levelId then lsReset s0 c.fused else s0) with hs1
    have e1 : (if lastLevel calls ≠ c.fused.levelId then (Smoother.ls (lsParams cs) cs.useBarriers s0).reset c.fused
        else .ls (lsParams cs) cs.useBarriers s0) = .ls (lsParams cs) cs.useBarriers s1 := by
      rw [hs1]; split_ifs <;> rfl
    rw [e1] at hr
    simp only [Smoother.smooth, Option.map_eq_some_iff] at hr
    obtain ⟨a, ha, rfl⟩ := hr
    have e2 : lsRun (lsParams cs) cs.useBarriers 0
        (lsCalls allowed "" calls ++ if lastLevel calls ≠ c.fused.levelId then [.reset c.fused] else []) = some s1 := by
      rw [lsRun_append, hs0, hs1]
      split_ifs <;> simp [lsStep]
    refine ⟨⟨s1, a.2, e2, ha⟩, ⟨a.2, ?_, rfl⟩, lsSmooth_level ha⟩
    rw [lsCalls_append, ← List.append_assoc, lsRun_append]
    change (lsRun (lsParams cs) cs.useBarriers 0
        (lsCalls allowed "" calls ++ if lastLevel calls ≠ c.fused.levelId then [.reset c.fused] else [])).bind _ = _
    rw [e2]
    simp [lsStep, ha]

/-- The state of the post-processor after a history. -/
structure ChainInv (cs : CommonSettings) (allowed : Level → ℝ → ℝ → Prop) (calls : List Call) (s : PostState)
    (qs : List Position) : Prop where
  smoothed : AllSmoothed cs allowed calls qs
  smoother : cs.useSmoothing = true → SmootherIs cs allowed calls s.smoother
  time : cs.useTimeSmoothing = true → s.time = timeRun (qs.zip (calls.map Call.ts))
  level : s.lastOut.levelId = lastLevel calls

theorem all_snoc {calls : List Call} {qs : List Position} (h : AllSmoothed cs allowed calls qs) {c : Call} {q : Position}
    (hq : SmoothedTo cs allowed calls c q) : AllSmoothed cs allowed (calls ++ [c]) (qs ++ [q]) := by
  refine ⟨by simp [h.1], ?_⟩
  intro before d after he
  rcases List.eq_nil_or_concat after with rfl | ⟨after', e, rfl⟩
  · obtain ⟨rfl, hd⟩ := List.append_inj_left' he rfl, List.append_inj_right' he rfl
    have hd : c = d := by simpa using hd
    subst hd
    exact ⟨q, by rw [← h.1]; simp, hq⟩
  · have he' : calls ++ [c] = (before ++ d :: after') ++ [e] := by rw [he]; simp
    have h1 := List.append_inj_left' he' rfl
    obtain ⟨q', hq', hs⟩ := h.2 before d after' h1
    refine ⟨q', ?_, hs⟩
    rw [List.getElem?_append_left]
    · exact hq'
    · exact (List.getElem?_eq_some_iff.mp hq').1

theorem goodCalls_fuse (ops : List PostOp) (t : Int) (i o : Position) (st : NavigationStatus) :
    goodCalls cs (ops ++ [.fuse t i o st]) = goodCalls cs ops := by
  simp [goodCalls, List.filterMap_append]

open Classical in
theorem goodCalls_process (ops : List PostOp) (f : Position) (t m : Int) (l : Level) :
    goodCalls cs (ops ++ [.process f t m l]) = if Call.Good cs ⟨f, t, l⟩ then goodCalls cs ops ++ [⟨f, t, l⟩] else goodCalls cs ops := by
  unfold goodCalls
  rw [List.filterMap_append, List.filter_append]
  by_cases h : Call.Good cs ⟨f, t, l⟩ <;> simp [h]

/-- The smoothers during one accepted call. -/
theorem chain_smoothing {calls : List Call} {s : PostState} {qs : List Position} (inv : ChainInv cs allowed calls s qs) (c : Call)
    {r : Position × PostState} (h : smoothing cs (allowed c.level) s c.fused c.ts = some r) :
    ∃ q, SmoothedTo cs allowed calls c q ∧
      r.1 = (if cs.useTimeSmoothing = true then timeAnswer (qs.zip (calls.map Call.ts)) q c.ts else q) ∧
      (cs.useSmoothing = true → SmootherIs cs allowed (calls ++ [c]) r.2.smoother) ∧
      (cs.useTimeSmoothing = true → r.2.time = timeRun ((qs ++ [q]).zip ((calls ++ [c]).map Call.ts))) ∧
      r.1.levelId = c.fused.levelId := by
  have hzip : ∀ q, (qs ++ [q]).zip ((calls ++ [c]).map Call.ts) = qs.zip (calls.map Call.ts) ++ [(q, c.ts)] := by
    intro q
    rw [List.map_append, List.zip_append (by rw [List.length_map, inv.smoothed.1])]
    rfl
  have tail : ∀ (q : Position) (s1 : PostState), s1.time = s.time → q.levelId = c.fused.levelId →
      let r' : Position × PostState := if cs.useTimeSmoothing then
        ((timeSmooth s1.time q c.ts).1, { s1 with time := (timeSmooth s1.time q c.ts).2 }) else (q, s1)
      r'.1 = (if cs.useTimeSmoothing = true then timeAnswer (qs.zip (calls.map Call.ts)) q c.ts else q) ∧
      r'.2.smoother = s1.smoother ∧
      (cs.useTimeSmoothing = true → r'.2.time = timeRun ((qs ++ [q]).zip ((calls ++ [c]).map Call.ts))) ∧
      r'.1.levelId = c.fused.levelId := by
    intro q s1 ht hl r'
    by_cases hu : cs.useTimeSmoothing = true
    · have ht' := inv.time hu
      rw [hzip, timeRun_append]
      simp only [r', hu, if_true]
      rw [ht, ht']
      exact ⟨rfl, trivial, fun _ => rfl, by rw [timeSmooth_level]; exact hl⟩
    · simp only [r', hu]
      exact ⟨rfl, rfl, fun h => absurd h (by simp), hl⟩
  unfold smoothing at h
  dsimp only at h
  by_cases hu : cs.useSmoothing = true
  · rw [if_pos hu] at h
    rw [Option.map_map] at h
    obtain ⟨b, hb, rfl⟩ := Option.map_eq_some_iff.mp h
    rw [inv.level] at hb
    obtain ⟨h1, h2, h3⟩ := smoother_step (inv.smoother hu) hu c hb
    obtain ⟨t1, t2, t3, t4⟩ := tail b.1 { s with smoother := b.2 } rfl h3
    refine ⟨b.1, h1, t1, fun _ => ?_, t3, t4⟩
    simp only [Function.comp]
    simp only at t2
    rw [t2]
    exact h2
  · rw [if_neg hu] at h
    simp only [Option.map_some, Option.some.injEq] at h
    subst h
    obtain ⟨t1, t2, t3, t4⟩ := tail c.fused s rfl rfl
    refine ⟨c.fused, ?_, t1, fun h => absurd h hu, t3, t4⟩
    unfold SmoothedTo
    rw [if_pos (by simpa using hu)]

theorem takeOver_moving (hst : cs.useStops = false) (s : PostState) (p : Position) (ts : Int) :
    takeOver cs s p ts = { s with lastOut := { p with ts := ts, deviationM := s.indoorPos.deviationM } } := by
  unfold takeOver
  simp [hst]

theorem snap_off (h : cs.useGraphProjection = false) (level : Level) (p : Position) : snapToGraph cs level p = some p := by
  unfold snapToGraph
  simp [h]

theorem snap_level {level : Level} {p q : Position} (h : snapToGraph cs level p = some q) :
    q.levelId = p.levelId ∧ q.isEmpty = p.isEmpty ∧ q.provider = p.provider ∧ q.ts = p.ts ∧ q.deviationM = p.deviationM := by
  unfold snapToGraph at h
  split_ifs at h
  · dsimp only at h
    split at h
    · cases h
    · split at h
      · cases h; simp
      · cases h
        split_ifs <;> simp
  · cases h; simp

theorem chain_run (hst : cs.useStops = false) {ops : List PostOp} {s : PostState}
    {outs : List Position} (h : postRun cs allowed ops = some (s, outs)) :
    ∃ qs, ChainInv cs allowed (goodCalls cs ops) s qs := by
  induction ops using List.reverseRecOn generalizing s outs with
  | nil =>
    rw [postRun_nil] at h
    cases h
    refine ⟨[], ⟨rfl, fun b c a he => ?_⟩, fun _ => ?_, fun _ => rfl, rfl⟩
    · simp [goodCalls] at he
    · unfold SmootherIs postInit
      by_cases hab : cs.useAbFilter = true
      · simp only [hab, if_true]
        exact ⟨rfl, rfl⟩
      · simp only [hab]
        exact ⟨lsInit 0, rfl, rfl⟩
  | append_singleton ops op ih =>
    obtain ⟨s0, outs0, o, h0, hs, rfl⟩ := postRun_snoc h
    obtain ⟨qs, inv⟩ := ih h0
    cases op with
    | fuse t i o' st =>
      simp only [postStep, fusePositions, Option.some.injEq, Prod.mk.injEq] at hs
      have e : s.lastOut = s0.lastOut ∧ s.smoother = s0.smoother ∧ s.time = s0.time := by
        rw [← hs.2]
        unfold fillOutdoor fillIndoor
        split_ifs <;> simp
      rw [goodCalls_fuse]
      exact ⟨qs, inv.smoothed, by rw [e.2.1]; exact inv.smoother, by rw [e.2.2]; exact inv.time, by rw [e.1]; exact inv.level⟩
    | process f t m l =>
      simp only [postStep] at hs
      have hm := noteMotion_frame s0 m
      have hmt : (noteMotion s0 m).time = s0.time := by unfold noteMotion; split_ifs <;> rfl
      have inv' : ChainInv cs allowed (goodCalls cs ops) (noteMotion s0 m) qs :=
        ⟨inv.smoothed, by rw [hm.2.2.2.2.2.2]; exact inv.smoother, by rw [hmt]; exact inv.time,
          by rw [hm.2.2.2.2.1]; exact inv.level⟩
      rw [goodCalls_process]
      by_cases hrej : Rejects cs f t l
      · rw [if_neg (fun hgood => (good_iff _).mp hgood hrej)]
        rw [process_rejects hrej] at hs
        cases hs
        exact ⟨qs, inv'⟩
      · rw [if_pos ((good_iff ⟨f, t, l⟩).mpr hrej)]
        obtain ⟨c, p, hc, hp, heq⟩ := process_accepts hrej hs
        obtain ⟨q, k1, -, k3, k4, k5⟩ := chain_smoothing inv' ⟨f, t, l⟩ hc
        have hlev := (snap_level hp).1
        rw [takeOver_moving hst] at heq hlev
        cases heq
        exact ⟨qs ++ [q], all_snoc inv.smoothed k1, k3, k4, by rw [lastLevel_append]; exact hlev.trans k5⟩

/-! ## C96 -/

/-- **C96.** Without stops, the answer to an accepted call after any history of calls is the answer of the chosen smoother,
sent through the time smoother if that is in use, projected to the graph if that is in use, clamped to the box of the level
and rounded down to centimetres. Each smoother works as an object of its own that got exactly one call per accepted
position, and a reset before a position on another level than the one before. The level is that of the fused position, the
time that of the call, the deviation that of the last indoor position. -/
theorem C96_chain (hst : cs.useStops = false) {ops : List PostOp} {s s' : PostState}
    {outs : List Position} {r f : Position} {ts m : Int} {level : Level}
    (hrun : postRun cs allowed ops = some (s, outs))
    (hstep : postRun cs allowed (ops ++ [.process f ts m level]) = some (s', r :: outs))
    (hgood : Call.Good cs ⟨f, ts, level⟩) :
    ∃ qs q g, AllSmoothed cs allowed (goodCalls cs ops) qs ∧ SmoothedTo cs allowed (goodCalls cs ops) ⟨f, ts, level⟩ q ∧
      let p := if cs.useTimeSmoothing = true then timeAnswer (qs.zip ((goodCalls cs ops).map Call.ts)) q ts else q
      let b := level.geometry.boundingBox
      (snapToGraph cs level { p with ts := ts, deviationM := (lastGiven (indoorGiven ops)).deviationM } = some g) ∧
      (cs.useGraphProjection = false → g.x = p.x ∧ g.y = p.y) ∧
      r.x = ⌊min (max g.x b.minCorner.x) b.maxCorner.x * 100⌋ / 100 ∧
      r.y = ⌊min (max g.y b.minCorner.y) b.maxCorner.y * 100⌋ / 100 ∧
      r.isEmpty = p.isEmpty ∧ r.provider = p.provider ∧
      r.levelId = f.levelId ∧ r.ts = ts ∧ r.deviationM = (lastGiven (indoorGiven ops)).deviationM := by
  obtain ⟨qs, inv⟩ := chain_run hst hrun
  rw [postRun_append, hrun] at hstep
  simp only [Option.bind_some, Option.map_eq_some_iff, postStep] at hstep
  obtain ⟨o, ho, heq⟩ := hstep
  simp only [recordOut, Prod.mk.injEq, List.cons.injEq, and_true] at heq
  obtain ⟨rfl, rfl⟩ := heq
  have hm := noteMotion_frame s m
  have hmt : (noteMotion s m).time = s.time := by unfold noteMotion; split_ifs <;> rfl
  have inv' : ChainInv cs allowed (goodCalls cs ops) (noteMotion s m) qs :=
    ⟨inv.smoothed, by rw [hm.2.2.2.2.2.2]; exact inv.smoother, by rw [hmt]; exact inv.time,
      by rw [hm.2.2.2.2.1]; exact inv.level⟩
  obtain ⟨c, g, hc, hp, rfl⟩ := process_accepts ((good_iff _).mp hgood) ho
  have hfr := smoothing_frame hc
  obtain ⟨q, k1, k2, -, -, k5⟩ := chain_smoothing inv' ⟨f, ts, level⟩ hc
  have hlev := snap_level hp
  have hdev : c.2.indoorPos.deviationM = (lastGiven (indoorGiven ops)).deviationM := by
    rw [← (stores_run hrun).1, ← hm.1, ← hfr.1]
  rw [takeOver_moving hst] at hp hlev
  refine ⟨qs, q, g, inv.smoothed, k1, ?_⟩
  intro p b
  have hpc : p = c.1 := k2.symm
  rw [hpc, ← hdev]
  refine ⟨hp, fun hg => ?_, rfl, rfl, hlev.2.1, hlev.2.2.1, hlev.1.trans k5, hlev.2.2.2.1, hlev.2.2.2.2⟩
  rw [snap_off hg] at hp
  cases hp
  exact ⟨rfl, rfl⟩

/-- **C96, warm-up.** The alpha-beta smoother of the post-processor does not smooth the first two positions: the first one
resets it, and the reset does not count as a call. -/
theorem C96_warmup (hu : cs.useSmoothing = true) (hab : cs.useAbFilter = true) (c1 c2 : Call) (q1 q2 : Position)
    (hl : c1.fused.levelId ≠ "") (hsame : c2.fused.levelId = c1.fused.levelId) (hnew : c1.fused.ts < c2.fused.ts)
    (h1 : SmoothedTo cs allowed [] c1 q1) (h2 : SmoothedTo cs allowed [c1] c2 q2) : q1 = c1.fused ∧ q2 = c2.fused := by
  unfold SmoothedTo at h1 h2
  rw [if_neg (by simp [hu]), if_pos hab] at h1 h2
  have e1 : abRun (abParams cs) (abCalls allowed "" [] ++
      if lastLevel [] ≠ c1.fused.levelId then [.reset c1.fused] else []) = ⟨false, 0, 0, c1.fused⟩ := by
    rw [if_pos (by simpa [lastLevel] using hl.symm)]
    rfl
  have e2 : abRun (abParams cs) (abCalls allowed "" [c1] ++
      if lastLevel [c1] ≠ c2.fused.levelId then [.reset c2.fused] else []) = ⟨false, 0, 0, c1.fused⟩ := by
    rw [if_neg (by simp [lastLevel, hsame])]
    simp only [abCalls, if_pos hl.symm, List.append_nil, abRun, abInit]
    simp only [List.cons_append, List.nil_append, List.foldl, abStep]
    rw [C41_not_newer _ _ _ _ (by simp [abReset])]
    rfl
  rw [e1] at h1
  rw [e2] at h2
  constructor
  · rw [h1, C41_not_newer _ _ _ _ le_rfl]
  · rw [h2, ((abSmooth_newer (abParams cs) (allowed c2.level) _ c2.fused hnew (gain_lt _ _ _)).1 (Or.inl rfl))]

/-- Settings of the example: only the alpha-beta smoother. -/
noncomputable def abOnly : CommonSettings := { useStops := false, useSmoothing := true, useAbFilter := true }

theorem abOnly_step (al : ℝ → ℝ → Prop) (s : PostState) (p q : Position) (sm : Smoother) (ts : Int)
    (hx : |p.x| ≤ 90) (hy : |p.y| ≤ 90) (he : p.isEmpty = false) (hts : p.ts = ts) (n m : ℤ) (hq : q.x = n / 100)
    (hq' : q.y = m / 100) (hn : |(n : ℝ)| ≤ 9000) (hm : |(m : ℝ)| ≤ 9000)
    (h : (if s.lastOut.levelId ≠ p.levelId then s.smoother.reset p else s.smoother).smooth al p = some (q, sm)) :
    getProcessedPosition abOnly al s p ts 0 squareLevel =
      some ({ q with ts := ts, deviationM := s.indoorPos.deviationM },
        { s with smoother := sm, lastOut := { q with ts := ts, deviationM := s.indoorPos.deviationM } }) := by
  have f1 : ∀ k : ℤ, |(k : ℝ)| ≤ 9000 → fitCoordinate (-100) 100 (k / 100) = k / 100 := by
    intro k hk
    obtain ⟨h1, h2⟩ := abs_le.mp hk
    unfold fitCoordinate
    rw [max_eq_left (by linarith), min_eq_left (by linarith), div_mul_cancel₀ _ (by norm_num), Int.floor_intCast]
  obtain ⟨x1, x2⟩ := abs_le.mp hx
  obtain ⟨y1, y2⟩ := abs_le.mp hy
  have hin : isInsideMap abOnly p squareLevel := by
    right
    refine ⟨?_, ?_, ?_, ?_⟩ <;> simp only [squareLevel, Position.toXY] <;> linarith
  have hdr : ¬ (ts - p.ts ≥ toLongLong (1000 * abOnly.deadReckoningTime)) := by
    rw [hts]
    norm_num [abOnly, toLongLong]
  unfold getProcessedPosition
  dsimp only
  rw [if_neg (by norm_num : ¬ (0 : ℤ) > 0), if_neg (by simp [he]), if_neg (not_not.mpr hin), if_neg hdr]
  have hsm : smoothing abOnly al s p ts = some (q, { s with smoother := sm }) := by
    unfold smoothing
    dsimp only
    rw [if_pos (show abOnly.useSmoothing = true from rfl), h]
    simp [abOnly]
  rw [hsm]
  simp only [Option.bind_some]
  rw [takeOver_moving rfl, snap_off rfl]
  simp only [Option.map_some, fitInBox, squareLevel, hq, hq', f1 n hn, f1 m hm]

/-- Non-vacuity of C96: three positions on one level, one second apart. All three calls are good; the first two answers are the
positions themselves, the third is smoothed to the middle between prediction and measurement. -/
example :
    let p1 : Position := ⟨1, 0, "a", 1, 1000, false, .INDOOR, 0⟩
    let p2 : Position := ⟨2, 0, "a", 1, 2000, false, .INDOOR, 0⟩
    let p3 : Position := ⟨3, 0, "a", 1, 3000, false, .INDOOR, 0⟩
    (∀ p ∈ [p1, p2, p3], Call.Good abOnly ⟨p, p.ts, squareLevel⟩) ∧
    (postRun abOnly (fun _ _ _ => True)
      [.process p1 1000 0 squareLevel, .process p2 2000 0 squareLevel, .process p3 3000 0 squareLevel]).map Prod.snd =
      some [⟨5 / 2, 0, "a", 0, 3000, false, .INDOOR, 0⟩, ⟨2, 0, "a", 0, 2000, false, .INDOOR, 0⟩,
        ⟨1, 0, "a", 0, 1000, false, .INDOOR, 0⟩] := by
  intro p1 p2 p3
  constructor
  · have f : toLongLong (1000 * abOnly.deadReckoningTime) > 0 := by norm_num [abOnly, toLongLong]
    intro p hp
    simp only [List.mem_cons, List.not_mem_nil, or_false] at hp
    rcases hp with rfl | rfl | rfl <;>
      exact ⟨rfl, Or.inr (by norm_num [squareLevel, p1, p2, p3]), by simpa using f⟩
  have hne : ("" : String) ≠ "a" := by decide
  have hP : abParams abOnly = ⟨false, true, false, 1 / 2⟩ := by
    norm_num [abParams, abOnly, MIN_ALPHA, MAX_ALPHA]
  have a1 := abOnly_step (fun _ _ => True) (postInit abOnly) p1 p1 (.ab (abParams abOnly) ⟨false, 0, 0, p1⟩) 1000
    (by norm_num [p1]) (by norm_num [p1]) rfl rfl 100 0 (by norm_num [p1]) (by norm_num [p1]) (by norm_num) (by norm_num) (by
      rw [if_pos (show (postInit abOnly).lastOut.levelId ≠ p1.levelId from hne)]
      change Smoother.smooth _ (Smoother.ab (abParams abOnly) (abReset abInit p1)) p1 = _
      simp only [Smoother.smooth]
      rw [C41_not_newer _ _ _ _ (by simp [abReset])]
      rfl)
  let st1 : PostState := { postInit abOnly with
      smoother := .ab (abParams abOnly) ⟨false, 0, 0, p1⟩
      lastOut := { p1 with ts := 1000, deviationM := (postInit abOnly).indoorPos.deviationM } }
  have a2 := abOnly_step (fun _ _ => True) (s := st1) p2 p2 (.ab (abParams abOnly) ⟨true, 0, 0, p2⟩) 2000
    (by norm_num [p2]) (by norm_num [p2]) rfl rfl 200 0 (by norm_num [p2]) (by norm_num [p2]) (by norm_num) (by norm_num) (by
      rw [if_neg (not_not.mpr rfl)]
      simp only [st1, Smoother.smooth]
      rw [((abSmooth_newer (abParams abOnly) (fun _ _ => True) ⟨false, 0, 0, p1⟩ p2 (by norm_num [p1, p2]) (gain_lt _ _ _)).1 (Or.inl rfl))])
  let st2 : PostState := { postInit abOnly with
      smoother := .ab (abParams abOnly) ⟨true, 0, 0, p2⟩
      lastOut := { p2 with ts := 2000, deviationM := (postInit abOnly).indoorPos.deviationM } }
  have h36 : Real.sqrt (36 : ℝ) = 6 := by
    rw [show (36 : ℝ) = 6 ^ 2 by norm_num]; exact Real.sqrt_sq (by norm_num)
  have a3 := abOnly_step (fun _ _ => True) (s := st2) p3 { p3 with x := 5 / 2 }
    (.ab (abParams abOnly) ⟨true, 1 / 6, 0, { p3 with x := 5 / 2 }⟩) 3000
    (by norm_num [p3]) (by norm_num [p3]) rfl rfl 250 0 (by norm_num [p3]) (by norm_num [p3]) (by norm_num) (by norm_num) (by
      rw [if_neg (not_not.mpr rfl)]
      simp only [st2, Smoother.smooth, hP]
      norm_num [abSmooth, abGain, h36, divide_pos, p2, p3, TIME_THRESHOLD_SEC, MAX_OBJECT_VELOCITY_MPS])
  simp only [postRun, List.foldl, Option.bind_some, postStep]
  rw [a1]
  simp only [Option.map_some, Option.bind_some]
  rw [a2]
  simp only [Option.map_some, Option.bind_some]
  rw [a3]
  simp [recordOut, postInit, Position.default, p1, p2, p3, st1, st2]

end Verif.Post
