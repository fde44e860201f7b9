import Verif.Track.FloorsSpec
import Verif.Track.SettleProps
import Verif.Floors.Props

/-!
# Lemmas for C124
-/

namespace Verif.Track

open Verif.Levels Verif.Nav Verif.Floors Verif.Smooth
open Verif.Geo (XYPoint)

theorem fixNow_unique {ls : List Level} (hm : GoodMap ls) {ws : List (Int × List RadioMeasurement)} {a b : Level × Fix}
    (ha : FixNow ls ws a) (hb : FixNow ls ws b) : a = b := by
  obtain ⟨lv, t, p⟩ := a
  obtain ⟨lv', t', p'⟩ := b
  obtain ⟨h1, bef, win, e, f⟩ := ha
  obtain ⟨h1', bef', win', e', f'⟩ := hb
  obtain ⟨rfl, -⟩ := C118_unique hm h1 h1'
  rw [e] at e'
  obtain ⟨-, e2⟩ := List.append_inj' e' rfl
  simp only [List.cons.injEq, Prod.mk.injEq, and_true] at e2
  obtain ⟨r1, r2⟩ := e2
  dsimp only at r1 f f'
  subst r1 r2
  rw [fixAt_unique f f']

theorem floorFixes_snoc {ls : List Level} (hm : GoodMap ls) (ws : List (Int × List RadioMeasurement)) (w : Int × List RadioMeasurement) :
    (∀ e, FixNow ls (ws ++ [w]) e → floorFixes ls (ws ++ [w]) = floorFixes ls ws ++ [e]) ∧
    ((¬ ∃ e, FixNow ls (ws ++ [w]) e) → floorFixes ls (ws ++ [w]) = floorFixes ls ws) := by
  have hpre : (List.range ws.length).filterMap (fun k => open Classical in
      if h : ∃ e, FixNow ls ((ws ++ [w]).take (k + 1)) e then some h.choose else none) = floorFixes ls ws := by
    unfold floorFixes
    apply List.filterMap_congr
    intro k hk
    have hk : k < ws.length := List.mem_range.mp hk
    rw [List.take_append_of_le_length hk]
  have hlast : (ws ++ [w]).take (ws.length + 1) = ws ++ [w] := List.take_of_length_le (by simp)
  refine ⟨fun e he => ?_, fun h => ?_⟩
  · have h : ∃ e, FixNow ls (ws ++ [w]) e := ⟨e, he⟩
    rw [floorFixes, List.length_append, List.length_singleton, List.range_succ, List.filterMap_append, hpre]
    have h2 : ∃ e, FixNow ls ((ws ++ [w]).take (ws.length + 1)) e := by rw [hlast]; exact h
    have h3 : h2.choose = e := fixNow_unique hm h2.choose_spec (by rw [hlast]; exact he)
    rw [List.filterMap_cons, dif_pos h2, h3]
    rfl
  · rw [floorFixes, List.length_append, List.length_singleton, List.range_succ, List.filterMap_append, hpre]
    rw [List.filterMap_cons, dif_neg (by rw [hlast]; exact h)]
    exact List.append_nil _

theorem journey_snoc (cs : CommonSettings) (allowed : Level → ℝ → ℝ → Prop) (es : List (Level × Fix)) (e : Level × Fix) :
    journey cs allowed (es ++ [e]) = some (advance cs allowed (journey cs allowed es) e) := by
  unfold journey
  rw [List.foldl_append]
  rfl

theorem advance_parts (cs : CommonSettings) (allowed : Level → ℝ → ℝ → Prop) (j : Option Journey) (e : Level × Fix) :
    (advance cs allowed j e).floor = e.1 ∧ (advance cs allowed j e).motion.time = e.2.time := by
  unfold advance
  cases j with
  | none => exact ⟨rfl, rfl⟩
  | some j =>
    dsimp only
    split_ifs
    · exact ⟨rfl, rfl⟩
    · exact ⟨rfl, rfl⟩
    · exact ⟨rfl, follow_time _ _ _ _⟩

/-! ## The smoother -/

/-- The state of the smoother after a journey. -/
structure Keeps (j : Option Journey) (s : AbState) : Prop where
  called : s.wasCalled = (j.map Journey.moving).getD false
  level : ∀ k, j = some k → s.position.levelId = k.floor.id ∧ s.position.isEmpty = false ∧ s.position.provider = .INDOOR
  motion : ∀ k, j = some k → s.position.ts = k.motion.time ∧ s.position.toXY = k.motion.place ∧ s.speedX = k.motion.speed.x ∧
    s.speedY = k.motion.speed.y

/-- A new fix on the same floor. -/
theorem keeps_next {cs : CommonSettings} (hacc : cs.useAccuracyForSmoothing = false) {allowed : Level → ℝ → ℝ → Prop} {j : Journey}
    {s : AbState} (h : Keeps (some j) s) {q : Position} (hq : q.levelId = j.floor.id ∧ q.isEmpty = false ∧ q.provider = .INDOOR)
    (hts : j.motion.time < q.ts) :
    let r := abSmooth (abParams cs) (allowed j.floor) s q
    Keeps (some (advance cs allowed (some j) (j.floor, ⟨q.ts, q.toXY⟩))) r.2 ∧ r.1 = r.2.position := by
  intro r
  refine ⟨?_, (C41_state (abParams cs) (allowed j.floor) s q).1.symm⟩
  obtain ⟨k1, k2, k3, k4⟩ := h.motion j rfl
  have hg := params cs hacc s q
  obtain ⟨n1, n2⟩ := abSmooth_newer (abParams cs) (allowed j.floor) s q (by rw [k1]; exact hts) (by rw [hg]; exact weight_lt cs)
  rw [hg] at n1 n2
  have hcalled : s.wasCalled = j.moving := h.called
  have hlevel : r.2.position.levelId = j.floor.id ∧ r.2.position.isEmpty = false ∧ r.2.position.provider = .INDOOR := by
    by_cases hr : TakenRaw (abParams cs) (allowed j.floor) s q (weight cs)
    · simp only [r]
      rw [n1 hr]
      exact hq
    · obtain ⟨out, e, -, o2, -, o4, o5, -⟩ := n2 hr
      simp only [r]
      rw [e]
      exact ⟨o2.trans hq.1, o4.trans hq.2.1, o5.trans hq.2.2⟩
  by_cases hm : j.moving = false
  · have ha : advance cs allowed (some j) (j.floor, ⟨q.ts, q.toXY⟩) = ⟨j.floor, Motion.rest ⟨q.ts, q.toXY⟩, true⟩ := by
      unfold advance
      simp [hm]
    rw [ha]
    have hr := n1 (Or.inl (by rw [hcalled]; exact hm))
    refine ⟨?_, fun k hk => ?_, fun k hk => ?_⟩
    · simp only [r]; rw [hr]; rfl
    · rw [Option.some.injEq] at hk; rw [← hk]; exact hlevel
    · rw [Option.some.injEq] at hk
      rw [← hk]
      simp only [r]
      rw [hr]
      exact ⟨rfl, rfl, rfl, rfl⟩
  · have hm' : j.moving = true := by simpa using hm
    have ha : advance cs allowed (some j) (j.floor, ⟨q.ts, q.toXY⟩) = ⟨j.floor, j.motion.follow cs (allowed j.floor) ⟨q.ts, q.toXY⟩, true⟩ := by
      unfold advance
      simp [hm']
    rw [ha]
    obtain ⟨f0, f1, f2, f3, f4⟩ := follow_ab hacc (allowed j.floor) j.motion s ⟨by rw [hcalled]; exact hm', k1, k2, k3, k4⟩ q hts
    refine ⟨f0, fun k hk => ?_, fun k hk => ?_⟩
    · rw [Option.some.injEq] at hk; rw [← hk]; exact hlevel
    · rw [Option.some.injEq] at hk
      rw [← hk]
      exact ⟨f1, f2, f3, f4⟩

/-! ## The post-processor -/

/-- The post-processor after a journey. -/
structure Travels (cs : CommonSettings) (j : Option Journey) (s : Post.PostState) : Prop where
  smoother : ∃ st, s.smoother = .ab (abParams cs) st ∧ Keeps j st
  level : s.lastOut.levelId = (j.map (fun k => k.floor.id)).getD ""

theorem travels_init (cs : CommonSettings) (h : cs.useAbFilter = true) : Travels cs none (Post.postInit cs) := by
  refine ⟨⟨abInit, ?_, ⟨rfl, (fun k hk => by cases hk), (fun k hk => by cases hk)⟩⟩, rfl⟩
  unfold Post.postInit
  simp only [h, if_true]

theorem travels_fuse {cs : CommonSettings} {j : Option Journey} {s : Post.PostState} (h : Travels cs j s) (ts : Int) (a b : Position)
    (st : NavigationStatus) : Travels cs j (Post.fusePositions cs s ts a b st).2 := by
  have e1 : (Post.fusePositions cs s ts a b st).2.smoother = s.smoother := by
    simp only [Post.fusePositions, Post.fillOutdoor, Post.fillIndoor]
    split_ifs <;> rfl
  have e2 : (Post.fusePositions cs s ts a b st).2.lastOut = s.lastOut := by
    simp only [Post.fusePositions, Post.fillOutdoor, Post.fillIndoor]
    split_ifs <;> rfl
  exact ⟨by rw [e1]; exact h.smoother, by rw [e2]; exact h.level⟩

open Classical in
/-- The journey after the fused position is processed. -/
noncomputable def onward (cs : CommonSettings) (allowed : Level → ℝ → ℝ → Prop) (j : Option Journey) (lv : Level) (fused : Position) : Journey :=
  if ∃ k, j = some k ∧ k.floor = lv ∧ k.motion.time = fused.ts then j.getD ⟨lv, Motion.rest ⟨fused.ts, fused.toXY⟩, false⟩
  else advance cs allowed j (lv, ⟨fused.ts, fused.toXY⟩)

/-- The post-processor shows the journey. -/
theorem travels_step {cs : CommonSettings} (hp : SmoothZones cs) {allowed : Level → ℝ → ℝ → Prop} {lv : Level} (hid : lv.id ≠ "") {j : Option Journey}
    {s : Post.PostState} (hs : Travels cs j s) (hinj : ∀ k, j = some k → k.floor.id = lv.id → k.floor = lv) (fused : Position)
    (hq : fused.isEmpty = false → fused.levelId = lv.id ∧ fused.provider = .INDOOR)
    (ts lm : Int) {p : Position × Post.PostState} (h : Post.getProcessedPosition cs (allowed lv) s fused ts lm lv = some p)
    (hk : Estim.Box.Covers lv.geometry.boundingBox fused.toXY → ∀ k, j = some k → k.floor = lv → k.motion.time ≤ fused.ts) :
    p.2.indoorPos = s.indoorPos ∧
    (fused.isEmpty = false ∧ Estim.Box.Covers lv.geometry.boundingBox fused.toXY ∧ ts - fused.ts < ⌊1000 * cs.deadReckoningTime⌋ →
      Travels cs (some (onward cs allowed j lv fused)) p.2 ∧ p.1.isEmpty = false ∧ p.1.levelId = lv.id ∧ p.1.provider = .INDOOR ∧
        p.1.deviationM = s.indoorPos.deviationM ∧ p.1.toXY = shown lv.geometry.boundingBox (onward cs allowed j lv fused).motion.place) ∧
    (¬ (fused.isEmpty = false ∧ Estim.Box.Covers lv.geometry.boundingBox fused.toXY ∧ ts - fused.ts < ⌊1000 * cs.deadReckoningTime⌋) →
        p.1 = Position.default ∧ Travels cs j p.2) := by
  have hd : Post.toLongLong (1000 * cs.deadReckoningTime) = ⌊1000 * cs.deadReckoningTime⌋ :=
    toLongLong_eq (by have := hp.reckoning; linarith)
  have hin : Post.isInsideMap cs fused lv ↔ Estim.Box.Covers lv.geometry.boundingBox fused.toXY := by
    unfold Post.isInsideMap; rw [hp.outside]; simp
  unfold Post.getProcessedPosition at h
  dsimp only at h
  rw [hd] at h
  generalize hs1 : (if lm > 0 then { s with lastStepTs := lm } else s) = s1 at h
  have hind : s1.indoorPos = s.indoorPos := by rw [← hs1]; split_ifs <;> rfl
  have hfol : Travels cs j s1 := by
    have e1 : s1.smoother = s.smoother := by rw [← hs1]; split_ifs <;> rfl
    have e2 : s1.lastOut = s.lastOut := by rw [← hs1]; split_ifs <;> rfl
    exact ⟨by rw [e1]; exact hs.smoother, by rw [e2]; exact hs.level⟩
  by_cases he : fused.isEmpty = true
  · rw [if_pos he] at h
    cases h
    exact ⟨hind, fun h => by rw [he] at h; exact absurd h.1 (by simp), fun _ => ⟨rfl, hfol⟩⟩
  rw [if_neg he] at h
  have he' : fused.isEmpty = false := by simpa using he
  by_cases hb : Estim.Box.Covers lv.geometry.boundingBox fused.toXY
  swap
  · rw [if_pos (by rw [hin]; exact hb)] at h
    cases h
    exact ⟨hind, fun h => absurd h.2.1 hb, fun _ => ⟨rfl, hfol⟩⟩
  rw [if_neg (by rw [hin]; simpa using hb)] at h
  by_cases ht : ts - fused.ts < ⌊1000 * cs.deadReckoningTime⌋
  swap
  · rw [if_pos (by omega)] at h
    cases h
    exact ⟨hind, fun h => absurd h.2.2 ht, fun _ => ⟨rfl, hfol⟩⟩
  rw [if_neg (by omega)] at h
  obtain ⟨q1, q2⟩ := hq he'
  obtain ⟨⟨st, hsm, hho⟩, hlv⟩ := hfol
  -- the smoother
  have key : ∃ r, Post.smoothing cs (allowed lv) s1 fused ts = some (r.position, { s1 with smoother := .ab (abParams cs) r }) ∧
      Keeps (some (onward cs allowed j lv fused)) r ∧ (onward cs allowed j lv fused).floor = lv := by
    unfold Post.smoothing
    simp only [hp.smoothing, hp.timeSmoothing, if_true, Bool.false_eq_true, if_false, hsm, q1, hlv]
    have hreset : (j.map (fun k => k.floor.id)).getD "" ≠ lv.id → (¬ ∃ k, j = some k ∧ k.floor = lv) := by
      rintro h ⟨k, rfl, rfl⟩
      exact h rfl
    by_cases hsame : (j.map (fun k => k.floor.id)).getD "" ≠ lv.id
    · rw [if_pos hsame]
      have hno := hreset hsame
      have ho : onward cs allowed j lv fused = ⟨lv, Motion.rest ⟨fused.ts, fused.toXY⟩, (j.map Journey.moving).getD false⟩ := by
        unfold onward
        rw [if_neg (fun ⟨k, h1, h2, _⟩ => hno ⟨k, h1, h2⟩)]
        unfold advance
        cases j with
        | none => rfl
        | some k =>
          dsimp only
          rw [if_pos (fun h => hno ⟨k, rfl, h⟩)]
          rfl
      rw [ho]
      refine ⟨abReset st fused, ?_, ⟨hho.called, fun k hk => ?_, fun k hk => ?_⟩, rfl⟩
      · unfold Post.Smoother.reset Post.Smoother.smooth
        dsimp only
        rw [C41_not_newer (abParams cs) (allowed lv) (abReset st fused) fused le_rfl]
        rfl
      · rw [Option.some.injEq] at hk; rw [← hk]; exact ⟨q1, he', q2⟩
      · rw [Option.some.injEq] at hk; rw [← hk]; exact ⟨rfl, rfl, rfl, rfl⟩
    · rw [if_neg hsame]
      push Not at hsame
      cases j with
      | none => exact absurd hsame (Ne.symm hid)
      | some k =>
        have hfl : k.floor = lv := hinj k rfl hsame
        subst hfl
        obtain ⟨k1, -⟩ := hho.motion k rfl
        have hle := hk hb k rfl rfl
        unfold Post.Smoother.smooth
        dsimp only
        rcases lt_or_eq_of_le hle with hlt | heq
        · have ho : onward cs allowed (some k) k.floor fused = advance cs allowed (some k) (k.floor, ⟨fused.ts, fused.toXY⟩) := by
            unfold onward
            rw [if_neg]
            rintro ⟨k', e1, -, e2⟩
            rw [Option.some.injEq] at e1
            rw [← e1] at e2
            omega
          rw [ho]
          obtain ⟨n1, n2⟩ := keeps_next hp.accuracy (allowed := allowed) hho ⟨q1, he', q2⟩ hlt
          refine ⟨_, ?_, n1, (advance_parts _ _ _ _).1⟩
          rw [n2]; rfl
        · have ho : onward cs allowed (some k) k.floor fused = k := by
            unfold onward
            rw [if_pos ⟨k, rfl, rfl, heq⟩]
            rfl
          rw [ho]
          refine ⟨st, ?_, hho, rfl⟩
          rw [C41_not_newer (abParams cs) (allowed k.floor) st fused (by rw [k1]; exact heq.ge)]
          rfl
  obtain ⟨r, hsmo, hr, hfloor⟩ := key
  rw [hsmo, Option.bind_some] at h
  have hto : ∀ (u : Post.PostState) (z : Position), Post.takeOver cs u z ts = { u with lastOut := { z with ts := ts, deviationM := u.indoorPos.deviationM } } := by
    intro u z
    unfold Post.takeOver
    simp [hp.stops]
  have hsn : ∀ q, Post.snapToGraph cs lv q = some q := by
    intro q
    unfold Post.snapToGraph
    simp [hp.graph]
  dsimp only at h
  rw [hto, hsn, Option.map_some, Option.some.injEq] at h
  rw [← h]
  obtain ⟨-, k2, -⟩ := hr.motion _ rfl
  obtain ⟨l1, l2, l3⟩ := hr.level _ rfl
  refine ⟨hind, fun _ => ⟨⟨⟨r, rfl, hr⟩, ?_⟩, ?_, ?_, ?_, ?_, ?_⟩, fun h => absurd ⟨he', hb, ht⟩ h⟩
  · exact l1
  · exact l2
  · rw [hfloor] at l1; exact l1
  · exact l3
  · show s1.indoorPos.deviationM = _; rw [hind]
  · rw [← k2]; rfl

end Verif.Track
