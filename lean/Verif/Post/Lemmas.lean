import Verif.Post.Spec
import Verif.NavGraph.Props
import Mathlib.Data.List.Induction

namespace Verif.Post

open Verif.Smooth
open Verif.Levels
open Verif.Geo (XYPoint)

variable {cs : CommonSettings} {allowed : Level → ℝ → ℝ → Prop}

theorem postRun_nil : postRun cs allowed [] = some (postInit cs, []) := rfl

theorem postRun_append (ops : List PostOp) (op : PostOp) :
    postRun cs allowed (ops ++ [op]) = (postRun cs allowed ops).bind (fun r =>
      (postStep cs allowed r.1 op).map (fun o => (o.2, recordOut r.2 o.1 op))) := by
  unfold postRun
  rw [List.foldl_append]
  rfl

theorem postRun_snoc {ops : List PostOp} {op : PostOp} {s' : PostState} {outs' : List Position}
    (h : postRun cs allowed (ops ++ [op]) = some (s', outs')) :
    ∃ s outs o, postRun cs allowed ops = some (s, outs) ∧ postStep cs allowed s op = some (o, s') ∧
      outs' = recordOut outs o op := by
  rw [postRun_append] at h
  cases hr : postRun cs allowed ops with
  | none => rw [hr] at h; simp at h
  | some r =>
    rw [hr, Option.bind_some] at h
    cases ho : postStep cs allowed r.1 op with
    | none => rw [ho] at h; simp at h
    | some o =>
      rw [ho] at h
      simp only [Option.map_some, Option.some.injEq, Prod.mk.injEq] at h
      exact ⟨r.1, r.2, o.1, rfl, by rw [ho, ← h.1], h.2.symm⟩

/-! ## What `getProcessedPosition` leaves alone -/

/-- `smoothing` changes only the two smoothers. -/
theorem smoothing_frame {al : ℝ → ℝ → Prop} {s : PostState} {fused : Position} {ts : Int}
    {r : Position × PostState} (h : smoothing cs al s fused ts = some r) :
    r.2.indoorPos = s.indoorPos ∧ r.2.outdoorPos = s.outdoorPos ∧ r.2.indoorDev = s.indoorDev ∧
      r.2.outdoorDev = s.outdoorDev ∧ r.2.lastOut = s.lastOut ∧ r.2.lastExtractionTs = s.lastExtractionTs ∧
      r.2.lastStepTs = s.lastStepTs := by
  unfold smoothing at h
  dsimp only at h
  split_ifs at h <;> simp only [Option.map_map, Option.map_eq_some_iff, Function.comp] at h <;>
    obtain ⟨a, ha, rfl⟩ := h <;> first | (cases ha; simp) | simp

theorem takeOver_frame (s : PostState) (p : Position) (ts : Int) :
    (takeOver cs s p ts).indoorPos = s.indoorPos ∧ (takeOver cs s p ts).outdoorPos = s.outdoorPos ∧
      (takeOver cs s p ts).indoorDev = s.indoorDev ∧ (takeOver cs s p ts).outdoorDev = s.outdoorDev ∧
      (takeOver cs s p ts).lastStepTs = s.lastStepTs ∧ (takeOver cs s p ts).smoother = s.smoother := by
  unfold takeOver
  dsimp only
  split_ifs <;> simp

/-- The state a call works with after reading the motion info. -/
def noteMotion (s : PostState) (m : Int) : PostState := if m > 0 then { s with lastStepTs := m } else s

/-- The three reasons for an empty result. -/
def Rejects (cs : CommonSettings) (fused : Position) (ts : Int) (level : Level) : Prop :=
  fused.isEmpty = true ∨ ¬ isInsideMap cs fused level ∨ ts - fused.ts ≥ toLongLong (1000 * cs.deadReckoningTime)

theorem process_rejects {al : ℝ → ℝ → Prop} {s : PostState} {fused : Position} {ts m : Int} {level : Level}
    (h : Rejects cs fused ts level) :
    getProcessedPosition cs al s fused ts m level = some (Position.default, noteMotion s m) := by
  unfold getProcessedPosition
  dsimp only
  by_cases h1 : fused.isEmpty = true
  · rw [if_pos h1]; rfl
  rw [if_neg h1]
  by_cases h2 : ¬ isInsideMap cs fused level
  · rw [if_pos h2]; rfl
  rw [if_neg h2]
  rw [if_pos (by rcases h with h | h | h; exacts [absurd h h1, absurd h h2, h])]
  rfl

theorem process_accepts {al : ℝ → ℝ → Prop} {s : PostState} {fused : Position} {ts m : Int} {level : Level}
    (h : ¬ Rejects cs fused ts level) {r : Position × PostState}
    (hr : getProcessedPosition cs al s fused ts m level = some r) :
    ∃ c p, smoothing cs al (noteMotion s m) fused ts = some c ∧
      snapToGraph cs level (takeOver cs c.2 c.1 ts).lastOut = some p ∧
      r = (fitInBox level.geometry.boundingBox p,
        { takeOver cs c.2 c.1 ts with lastOut := fitInBox level.geometry.boundingBox p }) := by
  unfold Rejects at h
  push Not at h
  obtain ⟨h1, h2, h3⟩ := h
  unfold getProcessedPosition at hr
  dsimp only at hr
  rw [if_neg h1, if_neg (by simpa using h2), if_neg (by omega)] at hr
  obtain ⟨c, hc, hr⟩ := Option.bind_eq_some_iff.mp hr
  obtain ⟨p, hp, hr⟩ := Option.map_eq_some_iff.mp hr
  exact ⟨c, p, hc, hp, hr.symm⟩

theorem noteMotion_frame (s : PostState) (m : Int) :
    (noteMotion s m).indoorPos = s.indoorPos ∧ (noteMotion s m).outdoorPos = s.outdoorPos ∧
      (noteMotion s m).indoorDev = s.indoorDev ∧ (noteMotion s m).outdoorDev = s.outdoorDev ∧
      (noteMotion s m).lastOut = s.lastOut ∧ (noteMotion s m).lastExtractionTs = s.lastExtractionTs ∧
      (noteMotion s m).smoother = s.smoother := by
  unfold noteMotion
  split_ifs <;> simp

theorem process_frame {al : ℝ → ℝ → Prop} {s : PostState} {fused : Position} {ts m : Int} {level : Level}
    {r : Position × PostState} (hr : getProcessedPosition cs al s fused ts m level = some r) :
    r.2.indoorPos = s.indoorPos ∧ r.2.outdoorPos = s.outdoorPos ∧ r.2.indoorDev = s.indoorDev ∧
      r.2.outdoorDev = s.outdoorDev ∧ r.2.lastStepTs = (if m > 0 then m else s.lastStepTs) := by
  have hn := noteMotion_frame s m
  have hl : (noteMotion s m).lastStepTs = (if m > 0 then m else s.lastStepTs) := by
    unfold noteMotion; split_ifs <;> rfl
  by_cases h : Rejects cs fused ts level
  · rw [process_rejects h] at hr
    cases hr
    exact ⟨hn.1, hn.2.1, hn.2.2.1, hn.2.2.2.1, hl⟩
  · obtain ⟨c, p, hc, -, rfl⟩ := process_accepts h hr
    have hs := smoothing_frame hc
    have ht := takeOver_frame (cs := cs) c.2 c.1 ts
    refine ⟨?_, ?_, ?_, ?_, ?_⟩
    · exact ht.1.trans (hs.1.trans hn.1)
    · exact ht.2.1.trans (hs.2.1.trans hn.2.1)
    · exact ht.2.2.1.trans (hs.2.2.1.trans hn.2.2.1)
    · exact ht.2.2.2.1.trans (hs.2.2.2.1.trans hn.2.2.2.1)
    · exact ht.2.2.2.2.1.trans (hs.2.2.2.2.2.2.trans hl)

/-! ## The stored positions -/

theorem indoorGiven_fuse (ops : List PostOp) (t : Int) (i o : Position) (st : NavigationStatus) :
    indoorGiven (ops ++ [.fuse t i o st]) = if i.isEmpty then indoorGiven ops else i :: indoorGiven ops := by
  unfold indoorGiven
  by_cases h : i.isEmpty = true <;> simp [h, List.filterMap_append]

theorem outdoorGiven_fuse (ops : List PostOp) (t : Int) (i o : Position) (st : NavigationStatus) :
    outdoorGiven (ops ++ [.fuse t i o st]) = if o.isEmpty then outdoorGiven ops else o :: outdoorGiven ops := by
  unfold outdoorGiven
  by_cases h : o.isEmpty = true <;> simp [h, List.filterMap_append]

theorem indoorGiven_process (ops : List PostOp) (f : Position) (t m : Int) (l : Level) :
    indoorGiven (ops ++ [.process f t m l]) = indoorGiven ops := by
  simp [indoorGiven, List.filterMap_append]

theorem outdoorGiven_process (ops : List PostOp) (f : Position) (t m : Int) (l : Level) :
    outdoorGiven (ops ++ [.process f t m l]) = outdoorGiven ops := by
  simp [outdoorGiven, List.filterMap_append]

theorem indoorGiven_nonempty (ops : List PostOp) : ∀ p ∈ indoorGiven ops, p.isEmpty = false := by
  intro p hp
  simp only [indoorGiven, List.mem_reverse, List.mem_filterMap] at hp
  obtain ⟨op, -, h⟩ := hp
  cases op <;> simp at h
  rw [← h.2]; exact h.1

theorem outdoorGiven_nonempty (ops : List PostOp) : ∀ p ∈ outdoorGiven ops, p.isEmpty = false := by
  intro p hp
  simp only [outdoorGiven, List.mem_reverse, List.mem_filterMap] at hp
  obtain ⟨op, -, h⟩ := hp
  cases op <;> simp at h
  rw [← h.2]; exact h.1

/-- What the state stores about the streams. -/
def Stores (cs : CommonSettings) (ops : List PostOp) (s : PostState) : Prop :=
  s.indoorPos = lastGiven (indoorGiven ops) ∧ s.outdoorPos = lastGiven (outdoorGiven ops) ∧
  s.indoorDev = trackedDev cs.priorDeviation cs.averageMovSpeed (indoorGiven ops) ∧
  s.outdoorDev = trackedDev cs.priorDeviation cs.averageMovSpeed (outdoorGiven ops)

theorem default_isEmpty : Position.default.isEmpty = true := rfl

theorem tracked_cons (l : List Position) (hl : ∀ p ∈ l, p.isEmpty = false) (p : Position) (stored : Position)
    (hs : stored = lastGiven l) :
    (priorDev cs stored p (trackedDev cs.priorDeviation cs.averageMovSpeed l) + p.deviationM) / 2 =
      trackedDev cs.priorDeviation cs.averageMovSpeed (p :: l) := by
  subst hs
  unfold priorDev
  cases l with
  | nil => simp [lastGiven, default_isEmpty, trackedDev]
  | cons q rest =>
    have : q.isEmpty = false := hl q (by simp)
    simp [lastGiven, this, trackedDev]

theorem stores_fill {ops : List PostOp} {s : PostState} (h : Stores cs ops s) (t : Int) (i o : Position)
    (st : NavigationStatus) :
    Stores cs (ops ++ [.fuse t i o st]) (fillOutdoor cs (fillIndoor cs s i) o) := by
  obtain ⟨h1, h2, h3, h4⟩ := h
  unfold Stores
  rw [indoorGiven_fuse, outdoorGiven_fuse]
  unfold fillOutdoor fillIndoor
  by_cases hi : i.isEmpty = true <;> by_cases ho : o.isEmpty = true <;> simp only [hi, ho, if_true] <;>
    refine ⟨?_, ?_, ?_, ?_⟩ <;>
    first
    | assumption
    | (simp [lastGiven]; done)
    | (rw [h3]; exact tracked_cons _ (indoorGiven_nonempty ops) _ _ h1)
    | (rw [h4]; exact tracked_cons _ (outdoorGiven_nonempty ops) _ _ h2)

theorem stores_run {ops : List PostOp} {s : PostState} {outs : List Position}
    (h : postRun cs allowed ops = some (s, outs)) : Stores cs ops s := by
  induction ops using List.reverseRecOn generalizing s outs with
  | nil =>
    rw [postRun_nil] at h
    cases h
    exact ⟨rfl, rfl, rfl, rfl⟩
  | append_singleton ops op ih =>
    obtain ⟨s0, outs0, o, h0, hs, -⟩ := postRun_snoc h
    have := ih h0
    cases op with
    | fuse t i o st =>
      simp only [postStep, fusePositions, Option.some.injEq, Prod.mk.injEq] at hs
      rw [← hs.2]
      exact stores_fill this t i o st
    | process f t m l =>
      obtain ⟨a, b, c, d, -⟩ := process_frame hs
      unfold Stores
      rw [indoorGiven_process, outdoorGiven_process]
      exact ⟨a.trans this.1, b.trans this.2.1, c.trans this.2.2.1, d.trans this.2.2.2⟩

theorem trackedDev_pos (prior speed : ℝ) (hp : 0 < prior) (hv : 0 ≤ speed) :
    ∀ l : List Position, Regular l → 0 < trackedDev prior speed l
  | [], _ => hp
  | [p], h => by
    have := h.1 p (by simp)
    simp only [trackedDev]
    linarith
  | p :: q :: rest, h => by
    have h0 := h.1 p (by simp)
    have h1 : q.ts ≤ p.ts := (List.pairwise_cons.mp h.2).1 q (by simp)
    have h2 := trackedDev_pos prior speed hp hv (q :: rest)
      ⟨fun x hx => h.1 x (List.mem_cons_of_mem _ hx), (List.pairwise_cons.mp h.2).2⟩
    have h3 : (0 : ℝ) ≤ ((p.ts - q.ts : Int) : ℝ) := by exact_mod_cast (by omega : (0 : Int) ≤ p.ts - q.ts)
    have h4 : 0 ≤ speed * ((p.ts - q.ts : Int) : ℝ) / 1000 := by positivity
    have := lt_min hp (by linarith : 0 < trackedDev prior speed (q :: rest) + speed * ((p.ts - q.ts : Int) : ℝ) / 1000)
    simp only [trackedDev]
    linarith

theorem delay_eq (now : Int) (p : Position) : delay now p = ageSec now p := by
  unfold delay ageSec
  split_ifs with h
  · rw [max_eq_right (by omega)]
  · rw [max_eq_left (by omega)]; simp

theorem ageSec_nonneg (now : Int) (p : Position) : 0 ≤ ageSec now p := by
  unfold ageSec
  have : (0 : ℝ) ≤ ((max 0 (now - p.ts) : Int) : ℝ) := by exact_mod_cast le_max_left 0 _
  positivity

/-! ## The last output -/

theorem timeSmooth_nonempty (t : TimeState) (p : Position) (ts : Int) (hp : p.isEmpty = false) :
    (timeSmooth t p ts).1.isEmpty = false := by
  unfold timeSmooth
  by_cases h1 : ts < p.ts
  · rw [if_pos h1]; exact hp
  rw [if_neg h1]
  by_cases h2 : t.prev.levelId ≠ p.levelId ∨ t.next.levelId ≠ p.levelId
  · rw [if_pos h2]; exact hp
  rw [if_neg h2]
  by_cases h3 : t.prev.isEmpty = true ∨ t.next.isEmpty = true ∨ p.isEmpty = true
  · rw [if_pos h3]; exact hp
  rw [if_neg h3]
  push Not at h3
  have hn : t.next.isEmpty = false := by simpa using h3.2.1
  dsimp only
  have : (if p.ts > t.next.ts then (⟨t.next, p⟩ : TimeState) else t).next.isEmpty = false := by
    split_ifs <;> assumption
  generalize (if p.ts > t.next.ts then (⟨t.next, p⟩ : TimeState) else t) = s at this
  unfold timeInterpolate
  dsimp only
  split_ifs <;> assumption

/-- The alpha-beta smoother holds a non-empty position. -/
def Holds : Smoother → Prop
  | .ab _ s => s.position.isEmpty = false
  | .ls .. => True

theorem smooth_nonempty {al : ℝ → ℝ → Prop} {sm : Smoother} (hs : Holds sm) {p : Position}
    (hp : p.isEmpty = false) {r : Position × Smoother} (h : sm.smooth al p = some r) :
    r.1.isEmpty = false ∧ Holds r.2 := by
  cases sm with
  | ab P s =>
    simp only [Smoother.smooth, Option.some.injEq] at h
    subst h
    simp only [Holds] at hs ⊢
    unfold abSmooth
    dsimp only
    split_ifs <;> simp [hp, hs]
  | ls P ub s =>
    simp only [Smoother.smooth, Option.map_eq_some_iff] at h
    obtain ⟨a, ha, rfl⟩ := h
    refine ⟨?_, trivial⟩
    unfold lsSmooth at ha
    dsimp only at ha
    split_ifs at ha
    · cases ha; exact hp
    · split at ha
      · split_ifs at ha
        · cases ha; exact hp
        · split at ha <;> cases ha <;> exact hp
      · cases ha

theorem reset_holds (sm : Smoother) {p : Position} (hp : p.isEmpty = false) : Holds (sm.reset p) := by
  cases sm <;> simp [Smoother.reset, Holds, abReset, hp]

/-- Smoothing a non-empty position of a named level gives a non-empty position. -/
theorem smoothing_nonempty {al : ℝ → ℝ → Prop} {s : PostState} {p : Position} {ts : Int}
    (hp : p.isEmpty = false) (hl : p.levelId ≠ "") (hs : s.lastOut.levelId ≠ "" → cs.useSmoothing = true → Holds s.smoother)
    {r : Position × PostState} (h : smoothing cs al s p ts = some r) :
    r.1.isEmpty = false ∧ (cs.useSmoothing = true → Holds r.2.smoother) := by
  unfold smoothing at h
  dsimp only at h
  have key : ∀ a : Position × PostState, (if cs.useSmoothing then
      ((if s.lastOut.levelId ≠ p.levelId then s.smoother.reset p else s.smoother).smooth al p).map
        (fun r => (r.1, { s with smoother := r.2 })) else some (p, s)) = some a →
      a.1.isEmpty = false ∧ (cs.useSmoothing = true → Holds a.2.smoother) := by
    intro a ha
    by_cases hu : cs.useSmoothing = true
    · rw [if_pos hu] at ha
      obtain ⟨b, hb, rfl⟩ := Option.map_eq_some_iff.mp ha
      have hh : Holds (if s.lastOut.levelId ≠ p.levelId then s.smoother.reset p else s.smoother) := by
        split_ifs with hne
        · exact reset_holds _ hp
        · push Not at hne
          exact hs (hne ▸ hl) hu
      have := smooth_nonempty hh hp hb
      exact ⟨this.1, fun _ => this.2⟩
    · rw [if_neg hu] at ha
      cases ha
      exact ⟨hp, fun h => absurd h hu⟩
  obtain ⟨a, ha, rfl⟩ := Option.map_eq_some_iff.mp h
  have := key a ha
  split_ifs
  · exact ⟨timeSmooth_nonempty _ _ _ this.1, this.2⟩
  · exact this

theorem snap_frame {level : Level} {p q : Position} (h : snapToGraph cs level p = some q) :
    q.isEmpty = p.isEmpty ∧ q.ts = p.ts ∧ q.levelId = p.levelId := by
  unfold snapToGraph at h
  dsimp only at h
  split_ifs at h
  · split at h
    · cases h
    · split at h
      · cases h; simp
      · cases h; split_ifs <;> simp
  · cases h; simp

theorem takeOver_lastOut (s : PostState) (p : Position) (ts : Int) :
    (takeOver cs s p ts).lastOut.ts = ts ∧
    ((cs.useStops = true ∧ stopDetected cs s ts) ∧
        ¬ (ts - s.lastExtractionTs > toLongLong (1000 * cs.stopUpdateTime) ∧
          Geometry.getDist s.lastOut.x s.lastOut.y p.x p.y < cs.useStopsDistanceThresholdM) ∧
        (takeOver cs s p ts).lastOut = { s.lastOut with ts := ts } ∧
        (takeOver cs s p ts).lastExtractionTs = s.lastExtractionTs ∨
      (cs.useStops = true ∧ stopDetected cs s ts) ∧
        (ts - s.lastExtractionTs > toLongLong (1000 * cs.stopUpdateTime) ∧
          Geometry.getDist s.lastOut.x s.lastOut.y p.x p.y < cs.useStopsDistanceThresholdM) ∧
        (takeOver cs s p ts).lastOut = { p with ts := ts } ∧
        (takeOver cs s p ts).lastExtractionTs = ts ∨
      ¬ (cs.useStops = true ∧ stopDetected cs s ts) ∧
        (takeOver cs s p ts).lastOut = { p with ts := ts, deviationM := s.indoorPos.deviationM } ∧
        (takeOver cs s p ts).lastExtractionTs = s.lastExtractionTs) := by
  unfold takeOver
  dsimp only
  by_cases h1 : cs.useStops = true ∧ stopDetected cs s ts
  · rw [if_pos h1]
    by_cases h2 : ts - s.lastExtractionTs > toLongLong (1000 * cs.stopUpdateTime) ∧
          Geometry.getDist s.lastOut.x s.lastOut.y p.x p.y < cs.useStopsDistanceThresholdM
    · rw [if_pos h2]
      exact ⟨rfl, Or.inr (Or.inl ⟨h1, h2, rfl, rfl⟩)⟩
    · rw [if_neg h2]
      exact ⟨rfl, Or.inl ⟨h1, h2, rfl, rfl⟩⟩
  · rw [if_neg h1]
    exact ⟨rfl, Or.inr (Or.inr ⟨h1, rfl, rfl⟩)⟩

/-- The invariant about the last output. -/
structure OutInv (cs : CommonSettings) (s : PostState) (outs : List Position) : Prop where
  holds : s.lastOut.levelId ≠ "" → cs.useSmoothing = true → Holds s.smoother
  shown : ∀ p, lastShown outs = some p → s.lastOut = p

theorem lastMotion_append (ops : List PostOp) (f : Position) (ts m : Int) (l : Level) :
    lastMotion (ops ++ [.process f ts m l]) = if m > 0 then m else lastMotion ops := by
  simp [lastMotion, List.foldl_append]

theorem lastMotion_run {ops : List PostOp} {s : PostState} {outs : List Position}
    (h : postRun cs allowed ops = some (s, outs)) : s.lastStepTs = lastMotion ops := by
  induction ops using List.reverseRecOn generalizing s outs with
  | nil => rw [postRun_nil] at h; cases h; rfl
  | append_singleton ops op ih =>
    obtain ⟨s0, outs0, o, h0, hs, -⟩ := postRun_snoc h
    have := ih h0
    cases op with
    | fuse t i o st =>
      simp only [postStep, fusePositions, Option.some.injEq, Prod.mk.injEq] at hs
      rw [← hs.2]
      have e : lastMotion (ops ++ [.fuse t i o st]) = lastMotion ops := by simp [lastMotion, List.foldl_append]
      rw [e, ← this]
      unfold fillOutdoor fillIndoor
      split_ifs <;> rfl
    | process f t m l =>
      rw [lastMotion_append, (process_frame hs).2.2.2.2, this]

end Verif.Post
