import Verif.Post.Props

/-!
# Properties of the position post-processor: stops (C39) and the graph (C40)
-/

namespace Verif.Post

open Verif.Smooth
open Verif.Levels
open Verif.Geo (XYPoint)

variable {cs : CommonSettings} {allowed : Level → ℝ → ℝ → Prop}

/-! ## Lemmas about fitting -/

theorem clamp_idem (lo hi x c : ℝ) (hc : c = min (max x lo) hi) (k : ℤ) (hk : k = ⌊c * 100⌋) :
    ⌊min (max ((k : ℝ) / 100) lo) hi * 100⌋ = k := by
  have h1 := Int.floor_le (c * 100)
  have h2 := Int.lt_floor_add_one (c * 100)
  rw [← hk] at h1 h2
  have hchi : c ≤ hi := hc ▸ min_le_right _ _
  rw [Int.floor_eq_iff]
  rcases le_or_gt lo hi with h | h
  · have hclo : lo ≤ c := hc ▸ le_min (le_max_right _ _) h
    have hm : (k : ℝ) / 100 ≤ max ((k : ℝ) / 100) lo := le_max_left _ _
    have hm2 : max ((k : ℝ) / 100) lo ≤ c := max_le (by linarith) hclo
    rw [min_eq_left (hm2.trans hchi)]
    constructor <;> linarith
  · have : ∀ z : ℝ, min (max z lo) hi = hi := fun z => min_eq_right (h.le.trans (le_max_right _ _))
    rw [this]
    rw [this] at hc
    rw [← hc]
    exact ⟨h1, h2⟩

/-- Fitting a fitted coordinate changes nothing. -/
theorem fit_idem (lo hi x : ℝ) : fitCoordinate lo hi (fitCoordinate lo hi x) = fitCoordinate lo hi x := by
  unfold fitCoordinate
  rw [clamp_idem lo hi x _ rfl _ rfl]

theorem clamp_lip (lo hi x y : ℝ) : |min (max x lo) hi - min (max y lo) hi| ≤ |x - y| := by
  refine (abs_min_sub_min_le_max (max x lo) hi (max y lo) hi).trans ?_
  rw [sub_self, abs_zero, max_eq_left (abs_nonneg _)]
  refine (abs_max_sub_max_le_max x lo y lo).trans ?_
  rw [sub_self, abs_zero, max_eq_left (abs_nonneg _)]

theorem fit_lip (lo hi x y : ℝ) : |fitCoordinate lo hi x - fitCoordinate lo hi y| ≤ |x - y| + 1 / 100 := by
  unfold fitCoordinate
  have h := abs_le.mp (clamp_lip lo hi x y)
  have a1 := Int.floor_le (min (max x lo) hi * 100)
  have a2 := Int.lt_floor_add_one (min (max x lo) hi * 100)
  have b1 := Int.floor_le (min (max y lo) hi * 100)
  have b2 := Int.lt_floor_add_one (min (max y lo) hi * 100)
  rw [abs_le]
  constructor <;> linarith [h.1, h.2]

/-- `p` is a result of fitting into the box. -/
def Fitted (b : Box) (p : Position) : Prop :=
  fitCoordinate b.minCorner.x b.maxCorner.x p.x = p.x ∧ fitCoordinate b.minCorner.y b.maxCorner.y p.y = p.y

theorem outs_fitted {b : Box} {ops : List PostOp} (hb : SameBox b ops) {s : PostState} {outs : List Position}
    (h : postRun cs allowed ops = some (s, outs)) : ∀ o ∈ outs, o.isEmpty = false → Fitted b o := by
  induction ops using List.reverseRecOn generalizing s outs with
  | nil => rw [postRun_nil] at h; cases h; simp
  | append_singleton ops op ih =>
    obtain ⟨s0, outs0, o, h0, hs, rfl⟩ := postRun_snoc h
    have inv := ih (fun f t m l hm => hb f t m l (by simp [hm])) h0
    cases op with
    | fuse t i o st => exact inv
    | process f t m l =>
      intro q hq hne
      rcases List.mem_cons.mp hq with rfl | hq
      · simp only [postStep] at hs
        by_cases hrej : Rejects cs f t l
        · rw [process_rejects hrej] at hs
          cases hs
          cases hne
        · obtain ⟨c, p, -, -, heq⟩ := process_accepts hrej hs
          simp only [Prod.mk.injEq] at heq
          rw [heq.1, ← hb f t m l (by simp)]
          exact ⟨fit_idem _ _ _, fit_idem _ _ _⟩
      · exact inv q hq hne

/-- The time of the last update during a stop never goes back. -/
theorem extraction_mono (hu : 0 ≤ cs.stopUpdateTime) {ops mid : List PostOp} {s s' : PostState}
    {outs outs' : List Position} (h : postRun cs allowed ops = some (s, outs))
    (h' : postRun cs allowed (ops ++ mid) = some (s', outs')) : s.lastExtractionTs ≤ s'.lastExtractionTs := by
  have hll : 0 ≤ toLongLong (1000 * cs.stopUpdateTime) := by
    have : (0 : ℝ) ≤ 1000 * cs.stopUpdateTime := by positivity
    unfold toLongLong
    rw [if_pos this]
    exact Int.floor_nonneg.mpr this
  induction mid using List.reverseRecOn generalizing s' outs' with
  | nil =>
    rw [List.append_nil, h] at h'
    cases h'
    exact le_refl _
  | append_singleton mid op ih =>
    rw [← List.append_assoc] at h'
    obtain ⟨s0, outs0, o, h0, hs, -⟩ := postRun_snoc h'
    refine (ih h0).trans ?_
    cases op with
    | fuse t i o st =>
      simp only [postStep, fusePositions, Option.some.injEq, Prod.mk.injEq] at hs
      rw [← hs.2]
      unfold fillOutdoor fillIndoor
      split_ifs <;> exact le_refl _
    | process f t m l =>
      simp only [postStep] at hs
      have hm := noteMotion_frame s0 m
      by_cases hrej : Rejects cs f t l
      · rw [process_rejects hrej] at hs
        cases hs
        rw [hm.2.2.2.2.2.1]
      · obtain ⟨c, p, hc, -, heq⟩ := process_accepts hrej hs
        simp only [Prod.mk.injEq] at heq
        rw [heq.2]
        change _ ≤ (takeOver cs c.2 c.1 t).lastExtractionTs
        have hfr := smoothing_frame hc
        have e : c.2.lastExtractionTs = s0.lastExtractionTs := hfr.2.2.2.2.2.1.trans hm.2.2.2.2.2.1
        rcases (takeOver_lastOut (cs := cs) c.2 c.1 t).2 with ⟨-, -, -, h⟩ | ⟨-, hh, -, h⟩ | ⟨-, -, h⟩ <;> rw [h]
        · rw [e]
        · omega
        · rw [e]

/-- What a change of the shown coordinates during a stop implies. -/
theorem moves_spec {b : Box} {ops : List PostOp} {fused p r : Position} {ts m : Int} {level : Level}
    (hg : cs.useGraphProjection = false) (hb : SameBox b (ops ++ [.process fused ts m level]))
    (hn : NamedLevels (ops ++ [.process fused ts m level]))
    (h : MovesWhileStill cs allowed ops fused ts m level p r) :
    ∃ s outs s', postRun cs allowed ops = some (s, outs) ∧
      postRun cs allowed (ops ++ [.process fused ts m level]) = some (s', r :: outs) ∧
      s'.lastExtractionTs = ts ∧ ts - s.lastExtractionTs > toLongLong (1000 * cs.stopUpdateTime) ∧
      ∃ q : Position, Geometry.getDist p.x p.y q.x q.y < cs.useStopsDistanceThresholdM ∧ Fitted b p ∧
        r.x = fitCoordinate b.minCorner.x b.maxCorner.x q.x ∧ r.y = fitCoordinate b.minCorner.y b.maxCorner.y q.y := by
  obtain ⟨hstill, hrne, hmove, s, outs, s', hrun, hsh, hstep⟩ := h
  obtain ⟨s0, outs0, o, h0, hs, hout⟩ := postRun_snoc hstep
  rw [hrun] at h0
  cases h0
  simp only [recordOut, List.cons.injEq, and_true] at hout
  subst hout
  have inv := outInv_run (fun f t m l hm => hn f t m l (by simp [hm])) hrun
  have hfit : Fitted b p := outs_fitted (fun f t m l hm => hb f t m l (by simp [hm])) hrun p
    (List.mem_of_find?_eq_some hsh) (lastShown_nonempty hsh)
  have hlast := inv.shown p hsh
  have hbox : level.geometry.boundingBox = b := hb fused ts m level (by simp)
  simp only [postStep] at hs
  have hm := noteMotion_frame s m
  by_cases hrej : Rejects cs fused ts level
  · rw [process_rejects hrej] at hs
    cases hs
    cases hrne
  · obtain ⟨c, q, hc, hq, heq⟩ := process_accepts hrej hs
    have hfr := smoothing_frame hc
    simp only [snapToGraph, hg, Bool.false_eq_true, if_false, Option.some.injEq] at hq
    subst hq
    simp only [Prod.mk.injEq, hbox] at heq
    have e1 : c.2.lastOut = p := hfr.2.2.2.2.1.trans (hm.2.2.2.2.1.trans hlast)
    have e2 : c.2.lastExtractionTs = s.lastExtractionTs := hfr.2.2.2.2.2.1.trans hm.2.2.2.2.2.1
    have e3 : c.2.lastStepTs = lastMotion (ops ++ [.process fused ts m level]) := by
      rw [hfr.2.2.2.2.2.2, lastMotion_append, ← lastMotion_run hrun]
      unfold noteMotion
      split_ifs <;> rfl
    have hstop : cs.useStops = true ∧ stopDetected cs c.2 ts := by
      refine ⟨hstill.1, ?_⟩
      unfold stopDetected
      rw [e3]
      exact hstill.2
    obtain ⟨rfl, rfl⟩ := heq
    rcases (takeOver_lastOut (cs := cs) c.2 c.1 ts).2 with ⟨-, -, h, -⟩ | ⟨-, h1, h2, h3⟩ | ⟨h, -⟩
    · exfalso
      rw [h] at hmove
      simp only [fitInBox, e1, hfit.1, hfit.2] at hmove
      simp at hmove
    · refine ⟨s, outs, _, hrun, hstep, h3, ?_, c.1, ?_, hfit, ?_, ?_⟩
      · rw [← e2]; exact h1.1
      · rw [← e1]; exact h1.2
      · rw [h2]; rfl
      · rw [h2]; rfl
    · exact absurd hstop h

/-! ## C39 -/

/-- **C39, spacing.** Without graph projection and on one level box: of any two calls that change the shown
coordinates while the user stands still, the later one has a time more than the stop update time after the
earlier one. -/
theorem C39_spacing {b : Box} {pre mid : List PostOp} {f1 f2 p1 r1 p2 r2 : Position} {t1 m1 t2 m2 : Int}
    {l1 l2 : Level} (hg : cs.useGraphProjection = false) (hu : 0 ≤ cs.stopUpdateTime)
    (hb : SameBox b (pre ++ [.process f1 t1 m1 l1] ++ mid ++ [.process f2 t2 m2 l2]))
    (hn : NamedLevels (pre ++ [.process f1 t1 m1 l1] ++ mid ++ [.process f2 t2 m2 l2]))
    (h1 : MovesWhileStill cs allowed pre f1 t1 m1 l1 p1 r1)
    (h2 : MovesWhileStill cs allowed (pre ++ [.process f1 t1 m1 l1] ++ mid) f2 t2 m2 l2 p2 r2) :
    t2 - t1 > toLongLong (1000 * cs.stopUpdateTime) := by
  obtain ⟨s, outs, s', -, hrun', he, -⟩ := moves_spec hg
    (fun f t m l hm => hb f t m l (List.mem_append_left _ (List.mem_append_left _ hm)))
    (fun f t m l hm => hn f t m l (List.mem_append_left _ (List.mem_append_left _ hm))) h1
  obtain ⟨s2, outs2, s3, hrun2, -, -, hgap, -⟩ := moves_spec hg hb hn h2
  have := extraction_mono hu hrun' hrun2
  omega

/-- **C39, distance.** Without graph projection and on one level box: a call that changes the shown coordinates
while the user stands still moves them by less than the distance threshold, up to the rounding (each
coordinate is rounded down to a whole centimetre). -/
theorem C39_near {b : Box} {ops : List PostOp} {fused p r : Position} {ts m : Int} {level : Level}
    (hg : cs.useGraphProjection = false) (hb : SameBox b (ops ++ [.process fused ts m level]))
    (hn : NamedLevels (ops ++ [.process fused ts m level]))
    (h : MovesWhileStill cs allowed ops fused ts m level p r) :
    Geometry.dist p.toXY r.toXY < cs.useStopsDistanceThresholdM + 15 / 1000 := by
  obtain ⟨-, -, -, -, -, -, -, q, hd, hfit, hx, hy⟩ := moves_spec hg hb hn h
  have ax := fit_lip b.minCorner.x b.maxCorner.x p.x q.x
  have ay := fit_lip b.minCorner.y b.maxCorner.y p.y q.y
  rw [hfit.1, ← hx] at ax
  rw [hfit.2, ← hy] at ay
  change Geometry.getDist p.toXY.x p.toXY.y q.toXY.x q.toXY.y < _ at hd
  rw [Geometry.getDist_eq_dist p.toXY q.toXY] at hd
  refine lt_of_le_of_lt ?_ (add_lt_add_left hd _)
  unfold Geometry.dist Geometry.sqDist
  change Real.sqrt ((p.x - r.x) ^ 2 + (p.y - r.y) ^ 2) ≤ Real.sqrt ((p.x - q.x) ^ 2 + (p.y - q.y) ^ 2) + 15 / 1000
  rw [← sq_abs (p.x - r.x), ← sq_abs (p.y - r.y), ← sq_abs (p.x - q.x), ← sq_abs (p.y - q.y)]
  have n1 := abs_nonneg (p.x - q.x)
  have n2 := abs_nonneg (p.y - q.y)
  have n3 := abs_nonneg (p.x - r.x)
  have n4 := abs_nonneg (p.y - r.y)
  generalize |p.x - q.x| = a at *
  generalize |p.y - q.y| = b' at *
  generalize |p.x - r.x| = c at *
  generalize |p.y - r.y| = d at *
  set D := Real.sqrt (a ^ 2 + b' ^ 2) with hD
  have hD0 : 0 ≤ D := Real.sqrt_nonneg _
  have hDD : D ^ 2 = a ^ 2 + b' ^ 2 := Real.sq_sqrt (by positivity)
  rw [Real.sqrt_le_left (by linarith)]
  have hab : a + b' ≤ 3 / 2 * D := by
    apply abs_le_of_sq_le_sq' _ (by linarith) |>.2
    nlinarith [sq_nonneg (a - b')]
  have h1 : c ^ 2 ≤ (a + 1 / 100) ^ 2 := pow_le_pow_left₀ n3 ax 2
  have h2 : d ^ 2 ≤ (b' + 1 / 100) ^ 2 := pow_le_pow_left₀ n4 ay 2
  nlinarith

/-- **C39, hold.** The same statement the other way round: while the user stands still, a fresh position inside
the map that is at the distance threshold or farther from the shown one leaves the shown coordinates as they
are (no smoothing, no graph projection, one level box). -/
theorem C39_hold {b : Box} {ops : List PostOp} {s s' : PostState} {outs : List Position} {fused p r : Position}
    {ts m : Int} {level : Level} (hg : cs.useGraphProjection = false) (hs1 : cs.useSmoothing = false)
    (hs2 : cs.useTimeSmoothing = false)
    (hb : SameBox b (ops ++ [.process fused ts m level])) (hn : NamedLevels (ops ++ [.process fused ts m level]))
    (hrun : postRun cs allowed ops = some (s, outs)) (hsh : lastShown outs = some p)
    (hstep : postRun cs allowed (ops ++ [.process fused ts m level]) = some (s', r :: outs))
    (hstill : StandsStill cs (ops ++ [.process fused ts m level]) ts) (hne : r.isEmpty = false)
    (hfar : cs.useStopsDistanceThresholdM ≤ Geometry.dist p.toXY fused.toXY) : r.x = p.x ∧ r.y = p.y := by
  obtain ⟨s0, outs0, o, h0, hs, hout⟩ := postRun_snoc hstep
  rw [hrun] at h0
  cases h0
  simp only [recordOut, List.cons.injEq, and_true] at hout
  subst hout
  have inv := outInv_run (fun f t m l hm => hn f t m l (by simp [hm])) hrun
  have hfit : Fitted b p := outs_fitted (fun f t m l hm => hb f t m l (by simp [hm])) hrun p
    (List.mem_of_find?_eq_some hsh) (lastShown_nonempty hsh)
  have hlast := inv.shown p hsh
  have hbox : level.geometry.boundingBox = b := hb fused ts m level (by simp)
  simp only [postStep] at hs
  have hm := noteMotion_frame s m
  by_cases hrej : Rejects cs fused ts level
  · rw [process_rejects hrej] at hs
    cases hs
    cases hne
  · obtain ⟨c, q, hc, hq, heq⟩ := process_accepts hrej hs
    have hfr := smoothing_frame hc
    simp only [snapToGraph, hg, Bool.false_eq_true, if_false, Option.some.injEq] at hq
    subst hq
    simp only [Prod.mk.injEq, hbox] at heq
    have e0 : c.1 = fused := by
      simp only [smoothing, hs1, hs2, Bool.false_eq_true, if_false, Option.map_some, Option.some.injEq] at hc
      rw [← hc]
    have e1 : c.2.lastOut = p := hfr.2.2.2.2.1.trans (hm.2.2.2.2.1.trans hlast)
    have e3 : c.2.lastStepTs = lastMotion (ops ++ [.process fused ts m level]) := by
      rw [hfr.2.2.2.2.2.2, lastMotion_append, ← lastMotion_run hrun]
      unfold noteMotion
      split_ifs <;> rfl
    have hstop : cs.useStops = true ∧ stopDetected cs c.2 ts := by
      refine ⟨hstill.1, ?_⟩
      unfold stopDetected
      rw [e3]
      exact hstill.2
    obtain ⟨rfl, rfl⟩ := heq
    rcases (takeOver_lastOut (cs := cs) c.2 c.1 ts).2 with ⟨-, -, h, -⟩ | ⟨-, h1, h2, h3⟩ | ⟨h, -⟩
    · rw [h]
      simp only [fitInBox, e1, hfit.1, hfit.2, and_self]
    · exfalso
      have h5 := h1.2
      rw [e1, e0] at h5
      change Geometry.getDist p.toXY.x p.toXY.y fused.toXY.x fused.toXY.y < _ at h5
      rw [Geometry.getDist_eq_dist p.toXY fused.toXY] at h5
      exact absurd h5 (not_lt.mpr hfar)
    · exact absurd hstop h

/-- Non-vacuity of C39: after a shown position, a near one is taken over during a stop and a far one is not. -/
example :
    (postRun { useStops := true, useSmoothing := false } (fun _ _ _ => True)
      [.process ⟨1, 0, "a", 1, 10000, false, .INDOOR, 0⟩ 10000 9000 squareLevel,
       .process ⟨5, 0, "a", 1, 14000, false, .INDOOR, 0⟩ 14000 0 squareLevel,
       .process ⟨60, 0, "a", 1, 24000, false, .INDOOR, 0⟩ 24000 0 squareLevel]).map Prod.snd =
      some [⟨5, 0, "a", 1, 24000, false, .INDOOR, 0⟩, ⟨5, 0, "a", 1, 14000, false, .INDOOR, 0⟩,
        ⟨1, 0, "a", 0, 10000, false, .INDOOR, 0⟩] := by
  have f1 : toLongLong 5000 = 5000 := by norm_num [toLongLong]
  have f2 : toLongLong 3000 = 3000 := by norm_num [toLongLong]
  have f3 : toLongLong 4000 = 4000 := by norm_num [toLongLong]
  have s1 : Real.sqrt 16 = 4 := by
    rw [show (16 : ℝ) = 4 * 4 by norm_num]; exact Real.sqrt_mul_self (by norm_num)
  have s2 : Real.sqrt 3025 = 55 := by
    rw [show (3025 : ℝ) = 55 * 55 by norm_num]; exact Real.sqrt_mul_self (by norm_num)
  simp only [postRun, List.foldl, Option.bind_some, postStep]
  unfold getProcessedPosition
  norm_num [isInsideMap, Estim.Box.Covers, squareLevel, Position.toXY, f1, f2, f3, smoothing, takeOver, stopDetected,
    snapToGraph, postInit, Position.default, fitInBox, fitCoordinate, recordOut, Geometry.getDist, s1, s2]

/-! ## C40 -/

/-- **C40.** Let the graph be built by the calls `gops` and let `p` be the position before projection. The
projection succeeds; it keeps `p` or moves it to a graph point nearer than the configured distance, and it is
the nearest graph point up to the degenerate-edge tolerance of 0.1 mm; if `p` is kept although the graph has
edges, then `p` was on the graph already or every graph point is at least the configured distance away (same
tolerance). -/
theorem C40_snap (gops : List (NavGraph.Op XYPoint)) (level : Level) (hgr : level.graph = NavGraph.run gops)
    (p : Position) (hg : cs.useGraphProjection = true) :
    ∃ q, snapToGraph cs level p = some q ∧
      ((NavGraph.OnGraph gops q.toXY ∧ Geometry.dist p.toXY q.toXY < cs.graphProjDist ∧
          ∀ g, NavGraph.OnGraph gops g → Geometry.dist p.toXY q.toXY ≤ Geometry.dist p.toXY g + 1e-4) ∨
        (q = p ∧ ∀ g, NavGraph.OnGraph gops g → cs.graphProjDist ≤ Geometry.dist p.toXY g + 1e-4)) ∧
      q = { p with x := q.x, y := q.y } := by
  obtain ⟨r, h1, h2, h3, h4, h5⟩ := NavGraph.C08_projection gops ⟨p.levelId, p.x, p.y⟩
  have hd : Geometry.getDistLP ⟨p.levelId, p.x, p.y⟩ r = some (Geometry.dist p.toXY ⟨r.x, r.y⟩) := by
    unfold Geometry.getDistLP
    rw [if_pos (by rw [h2])]
    rw [← Geometry.getDist_eq_dist p.toXY ⟨r.x, r.y⟩]
    rfl
  have hs : snapToGraph cs level p = some (if Geometry.dist p.toXY ⟨r.x, r.y⟩ < cs.graphProjDist then
      { p with x := r.x, y := r.y } else p) := by
    unfold snapToGraph
    rw [if_pos hg, hgr]
    dsimp only
    rw [h1]
    dsimp only
    rw [hd]
  by_cases hj : ∃ i j, NavGraph.Joined gops i j
  · by_cases hlt : Geometry.dist p.toXY ⟨r.x, r.y⟩ < cs.graphProjDist
    · rw [if_pos hlt] at hs
      exact ⟨_, hs, Or.inl ⟨h4 hj, hlt, fun g hgg => h5 g hgg⟩, rfl⟩
    · rw [if_neg hlt] at hs
      exact ⟨_, hs, Or.inr ⟨rfl, fun g hgg => (not_lt.mp hlt).trans (h5 g hgg)⟩, rfl⟩
  · push Not at hj
    have hr : r = ⟨p.levelId, p.x, p.y⟩ := h3 hj
    refine ⟨p, ?_, Or.inr ⟨rfl, ?_⟩, rfl⟩
    · rw [hs, hr]
      split_ifs <;> rfl
    · rintro g ⟨i, j, u, v, h, -⟩
      exact absurd h (hj _ _)

/-- **C40, exact.** When every edge is a single point or longer than the tolerance of the code, the nearest
graph point is exact. -/
theorem C40_snap_exact (gops : List (NavGraph.Op XYPoint)) (level : Level) (hgr : level.graph = NavGraph.run gops)
    (p : Position) (hg : cs.useGraphProjection = true)
    (hlong : ∀ (i j : ℕ) (u v : XYPoint), NavGraph.Joined gops i j → (NavGraph.addedPoints gops)[i]? = some u →
      (NavGraph.addedPoints gops)[j]? = some v → u = v ∨ Geometry.eps < Geometry.sqDist u v) :
    ∃ q, snapToGraph cs level p = some q ∧
      ((NavGraph.OnGraph gops q.toXY ∧ Geometry.dist p.toXY q.toXY < cs.graphProjDist ∧
          ∀ g, NavGraph.OnGraph gops g → Geometry.dist p.toXY q.toXY ≤ Geometry.dist p.toXY g) ∨
        (q = p ∧ ∀ g, NavGraph.OnGraph gops g → cs.graphProjDist ≤ Geometry.dist p.toXY g)) := by
  obtain ⟨r, h1, h2, h3, h4, -⟩ := NavGraph.C08_projection gops ⟨p.levelId, p.x, p.y⟩
  obtain ⟨r', h1', h5⟩ := NavGraph.C08_projection_exact gops ⟨p.levelId, p.x, p.y⟩ hlong
  rw [h1] at h1'
  cases h1'
  have hd : Geometry.getDistLP ⟨p.levelId, p.x, p.y⟩ r = some (Geometry.dist p.toXY ⟨r.x, r.y⟩) := by
    unfold Geometry.getDistLP
    rw [if_pos (by rw [h2])]
    rw [← Geometry.getDist_eq_dist p.toXY ⟨r.x, r.y⟩]
    rfl
  have hs : snapToGraph cs level p = some (if Geometry.dist p.toXY ⟨r.x, r.y⟩ < cs.graphProjDist then
      { p with x := r.x, y := r.y } else p) := by
    unfold snapToGraph
    rw [if_pos hg, hgr]
    dsimp only
    rw [h1]
    dsimp only
    rw [hd]
  by_cases hj : ∃ i j, NavGraph.Joined gops i j
  · by_cases hlt : Geometry.dist p.toXY ⟨r.x, r.y⟩ < cs.graphProjDist
    · rw [if_pos hlt] at hs
      exact ⟨_, hs, Or.inl ⟨h4 hj, hlt, fun g hgg => h5 g hgg⟩⟩
    · rw [if_neg hlt] at hs
      exact ⟨_, hs, Or.inr ⟨rfl, fun g hgg => (not_lt.mp hlt).trans (h5 g hgg)⟩⟩
  · push Not at hj
    have hr : r = ⟨p.levelId, p.x, p.y⟩ := h3 hj
    refine ⟨p, ?_, Or.inr ⟨rfl, ?_⟩⟩
    · rw [hs, hr]
      split_ifs <;> rfl
    · rintro g ⟨i, j, u, v, h, -⟩
      exact absurd h (hj _ _)

/-- **C40, the reported position.** With smoothing and stops off, the position reported for an accepted fused
position is the box fitting of its projection to the graph. -/
theorem C40_reported (gops : List (NavGraph.Op XYPoint)) (s s' : PostState) (fused r : Position) (ts m : Int)
    (level : Level) (hgr : level.graph = NavGraph.run gops) (hg : cs.useGraphProjection = true)
    (hs1 : cs.useSmoothing = false) (hs2 : cs.useTimeSmoothing = false) (hs3 : cs.useStops = false)
    (h : getProcessedPosition cs (allowed level) s fused ts m level = some (r, s')) (hr : r.isEmpty = false) :
    ∃ q : XYPoint,
      ((NavGraph.OnGraph gops q ∧ Geometry.dist fused.toXY q < cs.graphProjDist ∧
          ∀ g, NavGraph.OnGraph gops g → Geometry.dist fused.toXY q ≤ Geometry.dist fused.toXY g + 1e-4) ∨
        (q = fused.toXY ∧ ∀ g, NavGraph.OnGraph gops g → cs.graphProjDist ≤ Geometry.dist fused.toXY g + 1e-4)) ∧
      r.x = fitCoordinate level.geometry.boundingBox.minCorner.x level.geometry.boundingBox.maxCorner.x q.x ∧
      r.y = fitCoordinate level.geometry.boundingBox.minCorner.y level.geometry.boundingBox.maxCorner.y q.y := by
  by_cases hrej : Rejects cs fused ts level
  · rw [process_rejects hrej] at h
    cases h
    cases hr
  · obtain ⟨c, p, hc, hp, heq⟩ := process_accepts hrej h
    have e0 : c.1 = fused := by
      simp only [smoothing, hs1, hs2, Bool.false_eq_true, if_false, Option.map_some, Option.some.injEq] at hc
      rw [← hc]
    obtain ⟨q, hq, hor, -⟩ := C40_snap gops level hgr (takeOver cs c.2 c.1 ts).lastOut hg
    rw [hp] at hq
    cases hq
    have e : (takeOver cs c.2 c.1 ts).lastOut.toXY = fused.toXY := by
      unfold takeOver
      simp only [hs3, Bool.false_eq_true, false_and, if_false, e0]
      rfl
    rw [e] at hor
    simp only [Prod.mk.injEq] at heq
    refine ⟨p.toXY, ?_, by rw [heq.1]; rfl, by rw [heq.1]; rfl⟩
    rcases hor with h | ⟨h, h'⟩
    · exact Or.inl h
    · refine Or.inr ⟨?_, h'⟩
      rw [h]; exact e

/-- The calls building the graph of the creeping witness: one edge along `y = x + 0.005`. -/
noncomputable def diagonalOps : List (NavGraph.Op XYPoint) :=
  [.addVertex ⟨-50, -50 + 5 / 1000⟩, .addVertex ⟨50, 50 + 5 / 1000⟩, .addEdge 0 1]

/-- The level of the creeping witness. -/
noncomputable def diagonalLevel : Level := { squareLevel with graph := NavGraph.run diagonalOps }

/-- Projection to the diagonal edge. -/
theorem project_diagonal (x y : ℝ) (h1 : -1 ≤ x) (h2 : x ≤ 1) (h3 : -1 ≤ y) (h4 : y ≤ 1) :
    NavGraph.projectOnGraph (NavGraph.run diagonalOps) ⟨"a", x, y⟩ =
      some ⟨"a", (x + y - 5 / 1000) / 2, (x + y + 5 / 1000) / 2⟩ := by
  have k : ((x - -50) * (50 - -50) + (y - (-50 + 5 / 1000)) * (50 + 5 / 1000 - (-50 + 5 / 1000))) /
      ((50 - -50) * (50 - -50) + (50 + 5 / 1000 - (-50 + 5 / 1000)) * (50 + 5 / 1000 - (-50 + 5 / 1000))) =
      (x + y + 100 - 5 / 1000) / 200 := by norm_num; ring
  have kpos : 0 ≤ (x + y + 100 - 5 / 1000) / 200 := by linarith
  have kle : (x + y + 100 - 5 / 1000) / 200 ≤ 1 := by linarith
  have he : NavGraph.edgeProjection ⟨"a", x, y⟩ ⟨-50, -50 + 5 / 1000⟩ ⟨50, 50 + 5 / 1000⟩ =
      ⟨"a", (x + y - 5 / 1000) / 2, (x + y + 5 / 1000) / 2⟩ := by
    unfold NavGraph.edgeProjection; rw [Geometry.getProjection_eq]
    dsimp only
    have hab : ((50 : ℝ) - -50) * (50 - -50) + (50 + 5 / 1000 - (-50 + 5 / 1000)) * (50 + 5 / 1000 - (-50 + 5 / 1000)) >
        Geometry.eps := by norm_num [Geometry.eps]
    rw [if_pos hab, k, if_neg (not_lt.mpr kpos), if_neg (not_lt.mpr kle)]
    congr 1 <;> ring
  have hedges : (NavGraph.run diagonalOps).edges = [toLex ((0 : Int), (1 : Int))] := rfl
  have hv0 : NavGraph.getVertex (NavGraph.run diagonalOps) 0 = some ⟨0, ⟨-50, -50 + 5 / 1000⟩⟩ :=
    ((NavGraph.C10_vertices diagonalOps 0).2.1 _).mpr ⟨by simp, rfl, rfl⟩
  have hv1 : NavGraph.getVertex (NavGraph.run diagonalOps) 1 = some ⟨1, ⟨50, 50 + 5 / 1000⟩⟩ :=
    ((NavGraph.C10_vertices diagonalOps 1).2.1 _).mpr ⟨by simp, rfl, rfl⟩
  unfold NavGraph.projectOnGraph
  rw [hedges]
  unfold NavGraph.projLoop
  simp only [ofLex_toLex, hv0, hv1, he]
  rfl

/-- The settings of the creeping witness. -/
noncomputable def creepSettings : CommonSettings :=
  { useStops := true, useSmoothing := false, useGraphProjection := true }

theorem snap_diagonal (x y dev : ℝ) (ts : Int) (h1 : -1 ≤ x) (h2 : x ≤ 1) (h3 : -1 ≤ y) (h4 : y ≤ 1) :
    snapToGraph creepSettings diagonalLevel ⟨x, y, "a", dev, ts, false, .INDOOR, 0⟩ =
      some ⟨(x + y - 5 / 1000) / 2, (x + y + 5 / 1000) / 2, "a", dev, ts, false, .INDOOR, 0⟩ := by
  unfold snapToGraph
  rw [if_pos (show creepSettings.useGraphProjection = true from rfl)]
  dsimp only
  have hg : diagonalLevel.graph = NavGraph.run diagonalOps := rfl
  rw [hg, project_diagonal x y h1 h2 h3 h4]
  dsimp only
  have hd : Geometry.getDistLP ⟨"a", x, y⟩ ⟨"a", (x + y - 5 / 1000) / 2, (x + y + 5 / 1000) / 2⟩ =
      some (Geometry.getDist x y ((x + y - 5 / 1000) / 2) ((x + y + 5 / 1000) / 2)) := by
    unfold Geometry.getDistLP
    rw [if_pos rfl]
  rw [hd]
  dsimp only
  have hlt : Geometry.getDist x y ((x + y - 5 / 1000) / 2) ((x + y + 5 / 1000) / 2) < creepSettings.graphProjDist := by
    change Geometry.getDist x y ((x + y - 5 / 1000) / 2) ((x + y + 5 / 1000) / 2) < 5
    unfold Geometry.getDist
    rw [Real.sqrt_lt' (by norm_num)]
    nlinarith
  rw [if_pos hlt]

/-- **C39, violation with the graph.** With graph projection the shown coordinates change during a stop although
the new position is farther away than the threshold: the held position is projected and rounded down again
in each call and creeps along the edge. -/
theorem C39_creep_witness :
    (postRun creepSettings (fun _ _ _ => True)
      [.process ⟨0, 0, "a", 1, 10000, false, .INDOOR, 0⟩ 10000 9000 diagonalLevel,
       .process ⟨60, 0, "a", 1, 14000, false, .INDOOR, 0⟩ 14000 0 diagonalLevel]).map Prod.snd =
      some [⟨-1 / 100, -1 / 100, "a", 0, 14000, false, .INDOOR, 0⟩,
        ⟨-1 / 100, 0, "a", 0, 10000, false, .INDOOR, 0⟩] := by
  have f1 : toLongLong (1000 * creepSettings.deadReckoningTime) = 5000 := by norm_num [toLongLong, creepSettings]
  have f2 : toLongLong (1000 * creepSettings.stopDetectionTime) = 3000 := by norm_num [toLongLong, creepSettings]
  have hsm : ∀ al s p ts, smoothing creepSettings al s p ts = some (p, s) := fun al s p ts => rfl
  have hfar : ¬ Geometry.getDist (-1 / 100) 0 60 0 < creepSettings.useStopsDistanceThresholdM := by
    change ¬ Geometry.getDist (-1 / 100) 0 60 0 < 10
    unfold Geometry.getDist
    rw [not_lt]
    apply Real.le_sqrt_of_sq_le
    norm_num
  have in1 : isInsideMap creepSettings ⟨0, 0, "a", 1, 10000, false, .INDOOR, 0⟩ diagonalLevel :=
    Or.inr (by norm_num [Estim.Box.Covers, diagonalLevel, squareLevel, Position.toXY])
  have in2 : isInsideMap creepSettings ⟨60, 0, "a", 1, 14000, false, .INDOOR, 0⟩ diagonalLevel :=
    Or.inr (by norm_num [Estim.Box.Covers, diagonalLevel, squareLevel, Position.toXY])
  have fb : diagonalLevel.geometry.boundingBox = ⟨⟨-100, -100⟩, ⟨100, 100⟩⟩ := rfl
  have step1 : ∃ s1, getProcessedPosition creepSettings (fun _ _ => True) (postInit creepSettings)
      ⟨0, 0, "a", 1, 10000, false, .INDOOR, 0⟩ 10000 9000 diagonalLevel =
      some (⟨-1 / 100, 0, "a", 0, 10000, false, .INDOOR, 0⟩, s1) ∧
      s1.lastOut = ⟨-1 / 100, 0, "a", 0, 10000, false, .INDOOR, 0⟩ ∧ s1.lastStepTs = 9000 := by
    unfold getProcessedPosition
    simp only [hsm, f1, in1, not_true_eq_false, if_false, Bool.false_eq_true, Option.bind_some]
    have ht : takeOver creepSettings { postInit creepSettings with lastStepTs := 9000 }
        ⟨0, 0, "a", 1, 10000, false, .INDOOR, 0⟩ 10000 =
        { postInit creepSettings with
          lastStepTs := 9000, lastOut := ⟨0, 0, "a", 0, 10000, false, .INDOOR, 0⟩ } := by
      unfold takeOver stopDetected
      rw [f2, if_neg (by norm_num)]
      rfl
    norm_num [ht, snap_diagonal, fitInBox, fb, fitCoordinate]
  obtain ⟨s1, hs1, hlast, hstep⟩ := step1
  have step2 : ∃ s2, getProcessedPosition creepSettings (fun _ _ => True) s1
      ⟨60, 0, "a", 1, 14000, false, .INDOOR, 0⟩ 14000 0 diagonalLevel =
      some (⟨-1 / 100, -1 / 100, "a", 0, 14000, false, .INDOOR, 0⟩, s2) := by
    unfold getProcessedPosition
    simp only [hsm, f1, in2, not_true_eq_false, if_false, Bool.false_eq_true, Option.bind_some]
    have ht : takeOver creepSettings s1 ⟨60, 0, "a", 1, 14000, false, .INDOOR, 0⟩ 14000 =
        { s1 with lastOut := ⟨-1 / 100, 0, "a", 0, 14000, false, .INDOOR, 0⟩ } := by
      unfold takeOver stopDetected
      rw [f2, hstep, if_pos ⟨rfl, by norm_num⟩, hlast, if_neg (fun h => hfar h.2)]
    norm_num [ht, snap_diagonal, fitInBox, fb, fitCoordinate]
  obtain ⟨s2, hs2⟩ := step2
  simp only [postRun, List.foldl, Option.bind_some, postStep, hs1, Option.map_some, hs2, recordOut]

end Verif.Post
