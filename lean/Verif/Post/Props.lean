import Verif.Post.Lemmas

/-!
# Properties of the position post-processor (C36-C40)
-/

namespace Verif.Post

open Verif.Smooth
open Verif.Levels
open Verif.Geo (XYPoint)

variable {cs : CommonSettings} {allowed : Level → ℝ → ℝ → Prop}

/-! ## C36: fusion -/

/-- **C36, the result.** After any history of calls, `fusePositions` returns the last indoor position ever
given, or the last outdoor one, or a fused position: between the two, at the fraction given by their
tracked deviations at this time, with the smaller of these deviations, the newer time stamp and the provider
FUSED. The assumption is that each stream has non-negative deviations and times that do not go back. -/
theorem C36_result {ops : List PostOp} {s : PostState} {outs : List Position}
    (hrun : postRun cs allowed ops = some (s, outs)) (now : Int) (indoor outdoor : Position)
    (status : NavigationStatus) (hprior : 0 < cs.priorDeviation) (hspeed : 0 ≤ cs.averageMovSpeed)
    (hin : Regular (indoorGiven (ops ++ [.fuse now indoor outdoor status])))
    (hout : Regular (outdoorGiven (ops ++ [.fuse now indoor outdoor status]))) :
    let r := (fusePositions cs s now indoor outdoor status).1
    let iGiven := indoorGiven (ops ++ [.fuse now indoor outdoor status])
    let oGiven := outdoorGiven (ops ++ [.fuse now indoor outdoor status])
    let I := lastGiven iGiven
    let O := lastGiven oGiven
    let dI := cs.averageMovSpeed * ageSec now I + trackedDev cs.priorDeviation cs.averageMovSpeed iGiven
    let dO := cs.averageMovSpeed * ageSec now O + trackedDev cs.priorDeviation cs.averageMovSpeed oGiven
    r = I ∨ r = O ∨
      (cs.useGps = true ∧ cs.fuseGps = true ∧ I.isEmpty = false ∧ O.isEmpty = false ∧
        ageSec now I ≤ cs.positionIsTooOldSec ∧ ageSec now O ≤ cs.positionIsTooOldSec ∧
        Geometry.dist I.toXY O.toXY < I.deviationM + O.deviationM + cs.fuseGpsBorderM ∧
        0 < dI ∧ 0 < dO ∧ r.toXY = Geometry.along I.toXY O.toXY (dI / (dI + dO)) ∧
        Geometry.OnSegment I.toXY O.toXY r.toXY ∧
        r.deviationM = min dI dO ∧ r.ts = max I.ts O.ts ∧ r.provider = .FUSED ∧ r.isEmpty = false ∧
        r.levelId = I.levelId) := by
  intro r iGiven oGiven I O dI dO
  have hst := stores_fill (stores_run hrun) now indoor outdoor status
  obtain ⟨h1, h2, h3, h4⟩ := hst
  have hdI : 0 < dI := by
    have := trackedDev_pos _ _ hprior hspeed _ hin
    have := mul_nonneg hspeed (ageSec_nonneg now I)
    simp only [dI, iGiven]; linarith
  have hdO : 0 < dO := by
    have := trackedDev_pos _ _ hprior hspeed _ hout
    have := mul_nonneg hspeed (ageSec_nonneg now O)
    simp only [dO, oGiven]; linarith
  have hI : indoor.isEmpty = false → indoor = I := by
    intro h
    simp only [I, iGiven, indoorGiven_fuse, h]
    rfl
  have hO : outdoor.isEmpty = false → outdoor = O := by
    intro h
    simp only [O, oGiven, outdoorGiven_fuse, h]
    rfl
  have hr : r = chooseFused cs (fillOutdoor cs (fillIndoor cs s indoor) outdoor) now indoor outdoor status := rfl
  generalize fillOutdoor cs (fillIndoor cs s indoor) outdoor = s' at hr h1 h2 h3 h4
  unfold chooseFused at hr
  by_cases c1 : cs.useInstantGpsPosition = true ∧ outdoor.isEmpty = false
  · rw [if_pos c1] at hr; exact Or.inr (Or.inl (hr.trans (hO c1.2)))
  rw [if_neg c1] at hr
  by_cases c2 : cs.preferIndoorSolution = true ∧ indoor.isEmpty = false ∧ status = .OK
  · rw [if_pos c2] at hr; exact Or.inl (hr.trans (hI c2.2.1))
  rw [if_neg c2] at hr
  by_cases c3 : cs.useGps = false ∨ s'.outdoorPos.isEmpty = true
  · rw [if_pos c3] at hr; exact Or.inl (hr.trans h1)
  rw [if_neg c3] at hr
  by_cases c4 : s'.indoorPos.isEmpty = true
  · rw [if_pos c4] at hr; exact Or.inr (Or.inl (hr.trans h2))
  rw [if_neg c4] at hr
  by_cases c5 : delay now s'.indoorPos > cs.positionIsTooOldSec
  · rw [if_pos c5] at hr; exact Or.inr (Or.inl (hr.trans h2))
  rw [if_neg c5] at hr
  by_cases c6 : delay now s'.outdoorPos > cs.positionIsTooOldSec
  · rw [if_pos c6] at hr; exact Or.inl (hr.trans h1)
  rw [if_neg c6] at hr
  dsimp only at hr
  rw [delay_eq, h1] at c5
  rw [delay_eq, h2] at c6
  rw [delay_eq, delay_eq, h1, h2, h3, h4] at hr
  push Not at c3
  have hIe : I.isEmpty = false := by
    have : ¬ (I.isEmpty = true) := fun h => c4 (h1 ▸ h)
    simpa using this
  have hOe : O.isEmpty = false := by
    have : ¬ (O.isEmpty = true) := fun h => c3.2 (h2 ▸ h)
    simpa using this
  split_ifs at hr with c7 c8
  · refine Or.inr (Or.inr ?_)
    have e := Geometry.getDist_eq_dist I.toXY O.toXY
    have hx : r.toXY = Geometry.along I.toXY O.toXY (dI / (dI + dO)) := by
      rw [hr]
      have hne : dI + dO ≠ 0 := by linarith
      have hne' : dO + dI ≠ 0 := by linarith
      unfold Geometry.along Position.toXY
      simp only [XYPoint.mk.injEq]
      constructor
      · change (I.x * dO + O.x * dI) ÷ (dO + dI) = (1 - dI / (dI + dO)) * I.x + dI / (dI + dO) * O.x
        rw [divide_eq hne']
        field_simp; ring
      · change (I.y * dO + O.y * dI) ÷ (dO + dI) = (1 - dI / (dI + dO)) * I.y + dI / (dI + dO) * O.y
        rw [divide_eq hne']
        field_simp; ring
    refine ⟨by simpa using c3.1, c7.1, hIe, hOe,
      not_lt.mp c5, not_lt.mp c6, ?_, hdI, hdO, hx, ?_, by rw [hr], by rw [hr], by rw [hr], ?_, by rw [hr]⟩
    · rw [← e]; exact c7.2
    · rw [hx]
      refine ⟨dI / (dI + dO), by positivity, ?_, rfl⟩
      rw [div_le_one (by linarith)]; linarith
    · rw [hr]
      exact hIe
  · exact Or.inl hr
  · exact Or.inr (Or.inl hr)

/-- **C36, emptiness.** The result is empty iff no indoor position was ever given and either no outdoor one
was, or the use of GPS is off and this call is not an instant GPS one. -/
theorem C36_empty {ops : List PostOp} {s : PostState} {outs : List Position}
    (hrun : postRun cs allowed ops = some (s, outs)) (now : Int) (indoor outdoor : Position)
    (status : NavigationStatus) :
    (fusePositions cs s now indoor outdoor status).1.isEmpty = true ↔
      indoorGiven (ops ++ [.fuse now indoor outdoor status]) = [] ∧
      (outdoorGiven (ops ++ [.fuse now indoor outdoor status]) = [] ∨
        cs.useGps = false ∧ ¬ (cs.useInstantGpsPosition = true ∧ outdoor.isEmpty = false)) := by
  have hst := stores_fill (stores_run hrun) now indoor outdoor status
  obtain ⟨h1, h2, -, -⟩ := hst
  have hlast : ∀ l : List Position, (∀ p ∈ l, p.isEmpty = false) → ((lastGiven l).isEmpty = true ↔ l = []) := by
    intro l hl
    cases l with
    | nil => simp [lastGiven, default_isEmpty]
    | cons p l => simp [lastGiven, hl p (by simp)]
  have e1 : (fillOutdoor cs (fillIndoor cs s indoor) outdoor).indoorPos.isEmpty = true ↔
      indoorGiven (ops ++ [.fuse now indoor outdoor status]) = [] := by
    rw [h1]; exact hlast _ (indoorGiven_nonempty _)
  have e2 : (fillOutdoor cs (fillIndoor cs s indoor) outdoor).outdoorPos.isEmpty = true ↔
      outdoorGiven (ops ++ [.fuse now indoor outdoor status]) = [] := by
    rw [h2]; exact hlast _ (outdoorGiven_nonempty _)
  have fi : indoor.isEmpty = false → indoorGiven (ops ++ [.fuse now indoor outdoor status]) ≠ [] := by
    intro h; rw [indoorGiven_fuse]; simp [h]
  have fo : outdoor.isEmpty = false → outdoorGiven (ops ++ [.fuse now indoor outdoor status]) ≠ [] := by
    intro h; rw [outdoorGiven_fuse]; simp [h]
  have hr : (fusePositions cs s now indoor outdoor status).1 =
    chooseFused cs (fillOutdoor cs (fillIndoor cs s indoor) outdoor) now indoor outdoor status := rfl
  rw [hr, ← e1, ← e2]
  rw [ne_eq, ← e1] at fi
  rw [ne_eq, ← e2] at fo
  generalize fillOutdoor cs (fillIndoor cs s indoor) outdoor = s' at fi fo
  clear hr h1 h2 e1 e2
  unfold chooseFused
  by_cases c1 : cs.useInstantGpsPosition = true ∧ outdoor.isEmpty = false
  · rw [if_pos c1]
    have := fo c1.2
    simp [c1, this]
  rw [if_neg c1]
  by_cases c2 : cs.preferIndoorSolution = true ∧ indoor.isEmpty = false ∧ status = .OK
  · rw [if_pos c2]
    have := fi c2.2.1
    simp [c2, this]
  rw [if_neg c2]
  by_cases c3 : cs.useGps = false ∨ s'.outdoorPos.isEmpty = true
  · rw [if_pos c3]
    constructor
    · intro h
      exact ⟨h, c3.elim (fun c => Or.inr ⟨c, c1⟩) Or.inl⟩
    · exact And.left
  rw [if_neg c3]
  push Not at c3
  by_cases c4 : s'.indoorPos.isEmpty = true
  · rw [if_pos c4]; simp [c3, c4]
  rw [if_neg c4]
  have : ¬ (s'.indoorPos.isEmpty = true) := c4
  dsimp only
  split_ifs <;> simp_all

/-- **C36, options.** The instant GPS option returns a given outdoor position as it is; the prefer-indoor
option returns a given indoor position when the status is OK; with GPS off the result is the last indoor
position; when only one of the two is too old, the other one is returned. -/
theorem C36_options {ops : List PostOp} {s : PostState} {outs : List Position}
    (hrun : postRun cs allowed ops = some (s, outs)) (now : Int) (indoor outdoor : Position)
    (status : NavigationStatus) :
    let r := (fusePositions cs s now indoor outdoor status).1
    let I := lastGiven (indoorGiven (ops ++ [.fuse now indoor outdoor status]))
    let O := lastGiven (outdoorGiven (ops ++ [.fuse now indoor outdoor status]))
    let instant := cs.useInstantGpsPosition = true ∧ outdoor.isEmpty = false
    let prefer := cs.preferIndoorSolution = true ∧ indoor.isEmpty = false ∧ status = .OK
    (instant → r = outdoor) ∧ (¬ instant → prefer → r = indoor) ∧
    (¬ instant → ¬ prefer → cs.useGps = false → r = I) ∧
    (¬ instant → ¬ prefer → cs.useGps = true → O.isEmpty = false →
      cs.positionIsTooOldSec < ageSec now I → r = O) ∧
    (¬ instant → ¬ prefer → I.isEmpty = false → ageSec now I ≤ cs.positionIsTooOldSec →
      cs.positionIsTooOldSec < ageSec now O → r = I) := by
  intro r I O instant prefer
  have hst := stores_fill (stores_run hrun) now indoor outdoor status
  obtain ⟨h1, h2, -, -⟩ := hst
  have hr : r = chooseFused cs (fillOutdoor cs (fillIndoor cs s indoor) outdoor) now indoor outdoor status := rfl
  generalize fillOutdoor cs (fillIndoor cs s indoor) outdoor = s' at hr h1 h2
  rw [hr]
  unfold chooseFused
  change s'.indoorPos = I at h1
  change s'.outdoorPos = O at h2
  refine ⟨fun a => ?_, fun a b => ?_, fun a b c => ?_, fun a b c d e => ?_, fun a b c d e => ?_⟩
  · exact if_pos a
  · rw [if_neg a, if_pos b]
  · rw [if_neg a, if_neg b, if_pos (Or.inl c), h1]
  · rw [if_neg a, if_neg b, if_neg (by simp [c, h2, d]), delay_eq, h1, h2, if_pos e]
    split_ifs <;> rfl
  · rw [if_neg a, if_neg b, delay_eq, delay_eq, h1, h2]
    split_ifs with x y z
    · rfl
    · rw [c] at y; cases y
    · exact absurd d (not_le.mpr z)
    · rfl

/-- **C36, the choice.** Without these options and with GPS in use: if only one of the two was ever given it is returned; if both
are recent and either fusing is off or they are farther apart than their deviations and the border allow, the one with the
smaller tracked deviation is returned, the outdoor one if they are equal; otherwise the result is a fused position. -/
theorem C36_choice {ops : List PostOp} {s : PostState} {outs : List Position}
    (hrun : postRun cs allowed ops = some (s, outs)) (now : Int) (indoor outdoor : Position)
    (status : NavigationStatus) :
    let r := (fusePositions cs s now indoor outdoor status).1
    let iGiven := indoorGiven (ops ++ [.fuse now indoor outdoor status])
    let oGiven := outdoorGiven (ops ++ [.fuse now indoor outdoor status])
    let I := lastGiven iGiven
    let O := lastGiven oGiven
    let dI := cs.averageMovSpeed * ageSec now I + trackedDev cs.priorDeviation cs.averageMovSpeed iGiven
    let dO := cs.averageMovSpeed * ageSec now O + trackedDev cs.priorDeviation cs.averageMovSpeed oGiven
    let near := cs.fuseGps = true ∧ Geometry.dist I.toXY O.toXY < I.deviationM + O.deviationM + cs.fuseGpsBorderM
    ¬ (cs.useInstantGpsPosition = true ∧ outdoor.isEmpty = false) →
    ¬ (cs.preferIndoorSolution = true ∧ indoor.isEmpty = false ∧ status = .OK) →
    cs.useGps = true →
    (O.isEmpty = true → r = I) ∧ (O.isEmpty = false → I.isEmpty = true → r = O) ∧
    (O.isEmpty = false → I.isEmpty = false →
      ageSec now I ≤ cs.positionIsTooOldSec → ageSec now O ≤ cs.positionIsTooOldSec →
      (¬ near → dI < dO → r = I) ∧ (¬ near → dO ≤ dI → r = O) ∧ (near → r.provider = .FUSED)) := by
  intro r iGiven oGiven I O dI dO near hinst hpref hgps
  obtain ⟨h1, h2, h3, h4⟩ := stores_fill (stores_run hrun) now indoor outdoor status
  have hr : r = chooseFused cs (fillOutdoor cs (fillIndoor cs s indoor) outdoor) now indoor outdoor status := rfl
  generalize fillOutdoor cs (fillIndoor cs s indoor) outdoor = s' at hr h1 h2 h3 h4
  have e := Geometry.getDist_eq_dist I.toXY O.toXY
  unfold chooseFused at hr
  rw [if_neg hinst, if_neg hpref] at hr
  refine ⟨fun ho => ?_, fun ho hi => ?_, fun ho hi hai hao => ?_⟩
  · rw [if_pos (Or.inr (by rw [h2]; exact ho))] at hr
    exact hr.trans h1
  · rw [if_neg (by rw [h2]; simpa [hgps] using ho), if_pos (by rw [h1]; exact hi)] at hr
    exact hr.trans h2
  · rw [if_neg (by rw [h2]; simpa [hgps] using ho), if_neg (by rw [h1]; simpa using hi), delay_eq, delay_eq, h1, h2, h3, h4,
      if_neg (not_lt.mpr hai), if_neg (not_lt.mpr hao)] at hr
    dsimp only at hr
    change Geometry.getDist I.x I.y O.x O.y = _ at e
    refine ⟨fun hn hlt => ?_, fun hn hle => ?_, fun hn => ?_⟩
    · rw [if_neg (by change ¬ (cs.fuseGps = true ∧ Geometry.getDist I.x I.y O.x O.y < _); rw [e]; exact hn), if_pos hlt] at hr
      exact hr
    · rw [if_neg (by change ¬ (cs.fuseGps = true ∧ Geometry.getDist I.x I.y O.x O.y < _); rw [e]; exact hn),
        if_neg (not_lt.mpr hle)] at hr
      exact hr
    · rw [if_pos (by change (cs.fuseGps = true ∧ Geometry.getDist I.x I.y O.x O.y < _); rw [e]; exact hn)] at hr
      rw [hr]

/-- Non-vacuity of C36: an indoor position at (0, 0) and an outdoor one at (6, 0), both with deviation 10,
are fused at (3, 0). -/
example : ∃ s outs, postRun { useGps := true, fuseGps := true } (fun _ _ _ => True)
      [.fuse 1000 ⟨0, 0, "a", 10, 1000, false, .INDOOR, 0⟩ Position.default .OK] = some (s, outs) ∧
    Regular (indoorGiven [.fuse 1000 ⟨0, 0, "a", 10, 1000, false, .INDOOR, 0⟩ Position.default .OK,
      .fuse 1000 Position.default ⟨6, 0, "a", 10, 1000, false, .GNSS, 0⟩ .OK]) ∧
    (fusePositions { useGps := true, fuseGps := true } s 1000 Position.default
      ⟨6, 0, "a", 10, 1000, false, .GNSS, 0⟩ .OK).1 = ⟨3, 0, "a", 30, 1000, false, .FUSED, 0⟩ := by
  refine ⟨_, _, rfl, ?_, ?_⟩
  · simp [Regular, indoorGiven, Position.default]
  · have h36 : Real.sqrt 36 = 6 := by
      rw [show (36 : ℝ) = 6 * 6 by norm_num]; exact Real.sqrt_mul_self (by norm_num)
    norm_num [fusePositions, chooseFused, fillIndoor, fillOutdoor, priorDev, postInit, Position.default, delay,
      Geometry.getDist, h36, divide_pos]

/-! ## C37: freshness -/

theorem lastShown_nonempty {outs : List Position} {p : Position} (h : lastShown outs = some p) :
    p.isEmpty = false := by
  have := List.find?_some h
  simpa using this

theorem outInv_run {ops : List PostOp} (hn : NamedLevels ops) {s : PostState} {outs : List Position}
    (h : postRun cs allowed ops = some (s, outs)) : OutInv cs s outs := by
  induction ops using List.reverseRecOn generalizing s outs with
  | nil =>
    rw [postRun_nil] at h
    cases h
    exact ⟨fun h => absurd rfl h, fun p hp => by simp [lastShown] at hp⟩
  | append_singleton ops op ih =>
    obtain ⟨s0, outs0, o, h0, hs, rfl⟩ := postRun_snoc h
    have inv := ih (fun f t m l hm => hn f t m l (by simp [hm])) h0
    cases op with
    | fuse t i o st =>
      simp only [postStep, fusePositions, Option.some.injEq, Prod.mk.injEq] at hs
      have e : s.lastOut = s0.lastOut ∧ s.smoother = s0.smoother := by
        rw [← hs.2]
        unfold fillOutdoor fillIndoor
        split_ifs <;> simp
      refine ⟨?_, ?_⟩
      · rw [e.1, e.2]; exact inv.holds
      · rw [e.1]; exact inv.shown
    | process f t m l =>
      simp only [postStep] at hs
      have hm := noteMotion_frame s0 m
      by_cases hrej : Rejects cs f t l
      · rw [process_rejects hrej] at hs
        cases hs
        refine ⟨?_, ?_⟩
        · rw [hm.2.2.2.2.1, hm.2.2.2.2.2.2]; exact inv.holds
        · intro p hp
          rw [hm.2.2.2.2.1]
          refine inv.shown p ?_
          simpa [recordOut, lastShown, default_isEmpty] using hp
      · obtain ⟨c, p, hc, hp, heq⟩ := process_accepts hrej hs
        have hf : f.isEmpty = false := by
          have : ¬ f.isEmpty = true := fun h => hrej (Or.inl h)
          simpa using this
        have hl : f.levelId ≠ "" := hn f t m l (by simp) hf
        obtain ⟨hne, hho⟩ := smoothing_nonempty hf hl
          (by rw [hm.2.2.2.2.1, hm.2.2.2.2.2.2]; exact inv.holds) hc
        have ht := takeOver_frame (cs := cs) c.2 c.1 t
        have hfr := smoothing_frame hc
        have hsnap := snap_frame hp
        simp only [Prod.mk.injEq] at heq
        obtain ⟨rfl, rfl⟩ := heq
        refine ⟨fun _ hu => ?_, ?_⟩
        · change Holds (takeOver cs c.2 c.1 t).smoother
          rw [ht.2.2.2.2.2]; exact hho hu
        · intro q hq
          change fitInBox l.geometry.boundingBox p = q
          have hq' : List.find? (fun o => !o.isEmpty) (fitInBox l.geometry.boundingBox p :: outs0) = some q := hq
          rw [List.find?_cons] at hq'
          split at hq'
          · simpa using hq'
          · exfalso
            rename_i hemp
            have hq0 : lastShown outs0 = some q := hq'
            have h1 := inv.shown q hq0
            have h2 := lastShown_nonempty hq0
            have h3 : p.isEmpty = true := by simpa [fitInBox] using hemp
            rw [hsnap.1] at h3
            rcases (takeOver_lastOut (cs := cs) c.2 c.1 t).2 with ⟨-, -, h, -⟩ | ⟨-, -, h, -⟩ | ⟨-, h, -⟩
            · rw [h] at h3
              have h3' : c.2.lastOut.isEmpty = true := h3
              rw [hfr.2.2.2.2.1, hm.2.2.2.2.1, h1, h2] at h3'
              cases h3'
            · rw [h] at h3
              have h3' : c.1.isEmpty = true := h3
              rw [hne] at h3'; cases h3'
            · rw [h] at h3
              have h3' : c.1.isEmpty = true := h3
              rw [hne] at h3'; cases h3'

/-- **C37, rejection.** In every state the result is the empty position when the fused position is empty,
lies outside the closed box of the level (unless positions outside the map are allowed) or is at least the
dead-reckoning time old; apart from the noted motion time nothing changes. -/
theorem C37_rejected (s : PostState) (fused : Position) (ts m : Int) (level : Level)
    (h : fused.isEmpty = true ∨
      (cs.useGpsOutsideMap = false ∧
        (fused.x < level.geometry.boundingBox.minCorner.x ∨ level.geometry.boundingBox.maxCorner.x < fused.x ∨
          fused.y < level.geometry.boundingBox.minCorner.y ∨ level.geometry.boundingBox.maxCorner.y < fused.y)) ∨
      ts - fused.ts ≥ toLongLong (1000 * cs.deadReckoningTime)) :
    ∃ s', getProcessedPosition cs (allowed level) s fused ts m level = some (Position.default, s') ∧
      s'.lastOut = s.lastOut ∧ s'.smoother = s.smoother ∧ s'.lastExtractionTs = s.lastExtractionTs ∧
      s'.indoorPos = s.indoorPos ∧ s'.outdoorPos = s.outdoorPos := by
  have hrej : Rejects cs fused ts level := by
    rcases h with h | ⟨h0, h⟩ | h
    · exact Or.inl h
    · refine Or.inr (Or.inl ?_)
      unfold isInsideMap Estim.Box.Covers
      rw [h0]
      rintro (h' | ⟨a, b, c, d⟩)
      · cases h'
      · change _ ≤ fused.x at a
        change fused.x ≤ _ at b
        change _ ≤ fused.y at c
        change fused.y ≤ _ at d
        rcases h with h | h | h | h <;> linarith
    · exact Or.inr (Or.inr h)
  have := noteMotion_frame s m
  exact ⟨noteMotion s m, process_rejects hrej, this.2.2.2.2.1, this.2.2.2.2.2.2, this.2.2.2.2.2.1, this.1, this.2.1⟩

/-- **C37, acceptance.** After any history of calls on named levels, a fused position that is not empty, is in
the closed box (or positions outside are allowed) and is younger than the dead-reckoning time gives a
position with the current time. It is not empty, provided that the user does not stand still or that some
earlier result was not empty. -/
theorem C37_accepted {ops : List PostOp} {s s' : PostState} {outs : List Position} {r : Position}
    (fused : Position) (ts m : Int) (level : Level)
    (hrun : postRun cs allowed ops = some (s, outs))
    (hstep : postRun cs allowed (ops ++ [.process fused ts m level]) = some (s', r :: outs))
    (hn : NamedLevels (ops ++ [.process fused ts m level]))
    (h1 : fused.isEmpty = false)
    (h2 : cs.useGpsOutsideMap = true ∨
      (level.geometry.boundingBox.minCorner.x ≤ fused.x ∧ fused.x ≤ level.geometry.boundingBox.maxCorner.x ∧
        level.geometry.boundingBox.minCorner.y ≤ fused.y ∧ fused.y ≤ level.geometry.boundingBox.maxCorner.y))
    (h3 : ts - fused.ts < toLongLong (1000 * cs.deadReckoningTime)) :
    r.ts = ts ∧
    ((¬ StandsStill cs (ops ++ [.process fused ts m level]) ts ∨ ∃ o ∈ outs, o.isEmpty = false) →
      r.isEmpty = false) := by
  have hrej : ¬ Rejects cs fused ts level := by
    rintro (h | h | h)
    · rw [h1] at h; cases h
    · exact h h2
    · omega
  obtain ⟨s0, outs0, o, h0, hs, hout⟩ := postRun_snoc hstep
  rw [hrun] at h0
  cases h0
  simp only [recordOut, List.cons.injEq, and_true] at hout
  subst hout
  have inv := outInv_run (fun f t m l hm => hn f t m l (by simp [hm])) hrun
  have hm := noteMotion_frame s m
  obtain ⟨c, p, hc, hp, heq⟩ := process_accepts hrej hs
  obtain ⟨hne, -⟩ := smoothing_nonempty h1 (hn fused ts m level (by simp) h1)
    (by rw [hm.2.2.2.2.1, hm.2.2.2.2.2.2]; exact inv.holds) hc
  have hfr := smoothing_frame hc
  have hsnap := snap_frame hp
  have hto := takeOver_lastOut (cs := cs) c.2 c.1 ts
  simp only [Prod.mk.injEq] at heq
  obtain ⟨rfl, -⟩ := heq
  constructor
  · change p.ts = ts
    rw [hsnap.2.1, hto.1]
  · intro hor
    change p.isEmpty = false
    rw [hsnap.1]
    rcases hto.2 with ⟨hst, -, h, -⟩ | ⟨-, -, h, -⟩ | ⟨-, h, -⟩
    · rw [h]
      change c.2.lastOut.isEmpty = false
      rw [hfr.2.2.2.2.1, hm.2.2.2.2.1]
      rcases hor with hor | ⟨o, ho, hoe⟩
      · exfalso
        apply hor
        have e : c.2.lastStepTs = lastMotion (ops ++ [.process fused ts m level]) := by
          rw [hfr.2.2.2.2.2.2, lastMotion_append, ← lastMotion_run hrun]
          unfold noteMotion
          split_ifs <;> rfl
        unfold StandsStill
        rw [← e]
        exact ⟨hst.1, hst.2.1, hst.2.2⟩
      · cases hls : lastShown outs with
        | none =>
          exfalso
          have := List.find?_eq_none.mp hls o ho
          simp [hoe] at this
        | some q => rw [inv.shown q hls]; exact lastShown_nonempty hls
    · rw [h]; exact hne
    · rw [h]; exact hne

/-- The level of the witnesses: the square from -100 to 100. -/
noncomputable def squareLevel : Level :=
  ⟨"a", ⟨0, 0⟩, [], ⟨[], []⟩, ⟨[], ⟨⟨-100, -100⟩, ⟨100, 100⟩⟩, []⟩, NavGraph.run []⟩

/-- **C37, the exception is real.** When the first call already finds the user standing still and the position
is not near (0, 0), the result is an empty position although the fused one is fresh and inside the map. -/
theorem C37_first_stop_witness :
    (postRun { useStops := true, useSmoothing := false } (fun _ _ _ => True)
      [.process ⟨50, 0, "a", 1, 10000, false, .INDOOR, 0⟩ 10000 1000 squareLevel]).map Prod.snd =
      some [⟨0, 0, "", 0, 10000, true, .NONE, 0⟩] := by
  have h50 : Real.sqrt 2500 = 50 := by
    rw [show (2500 : ℝ) = 50 * 50 by norm_num]; exact Real.sqrt_mul_self (by norm_num)
  have f1 : toLongLong 5000 = 5000 := by norm_num [toLongLong]
  have f2 : toLongLong 3000 = 3000 := by norm_num [toLongLong]
  simp only [postRun, List.foldl, Option.bind_some, postStep]
  unfold getProcessedPosition
  norm_num [isInsideMap, Estim.Box.Covers, squareLevel, Position.toXY, f1, f2, smoothing, takeOver, stopDetected,
    snapToGraph, postInit, Position.default, Geometry.getDist, h50, fitInBox, fitCoordinate, recordOut]

/-! ## C38: the box -/

/-- Clamping and rounding one coordinate. -/
theorem fitCoordinate_spec (lo hi x : ℝ) (h : lo ≤ hi) :
    lo - 1 / 100 < fitCoordinate lo hi x ∧ fitCoordinate lo hi x ≤ hi ∧
      ∃ k : ℤ, fitCoordinate lo hi x = k / 100 := by
  unfold fitCoordinate
  have h1 := Int.floor_le (min (max x lo) hi * 100)
  have h2 := Int.lt_floor_add_one (min (max x lo) hi * 100)
  have h3 : lo ≤ min (max x lo) hi := le_min (le_max_right _ _) h
  have h4 : min (max x lo) hi ≤ hi := min_le_right _ _
  exact ⟨by linarith, by linarith, _, rfl⟩

/-- **C38.** In every state, an accepted call returns coordinates that are whole centimetres, at most the
upper corner of the box and less than one centimetre below the lower one. -/
theorem C38_box (s s' : PostState) (fused r : Position) (ts m : Int) (level : Level)
    (hx : level.geometry.boundingBox.minCorner.x ≤ level.geometry.boundingBox.maxCorner.x)
    (hy : level.geometry.boundingBox.minCorner.y ≤ level.geometry.boundingBox.maxCorner.y)
    (h : getProcessedPosition cs (allowed level) s fused ts m level = some (r, s')) (hr : r.isEmpty = false) :
    level.geometry.boundingBox.minCorner.x - 1 / 100 < r.x ∧ r.x ≤ level.geometry.boundingBox.maxCorner.x ∧
    level.geometry.boundingBox.minCorner.y - 1 / 100 < r.y ∧ r.y ≤ level.geometry.boundingBox.maxCorner.y ∧
    (∃ k : ℤ, r.x = k / 100) ∧ ∃ k : ℤ, r.y = k / 100 := by
  by_cases hrej : Rejects cs fused ts level
  · rw [process_rejects hrej] at h
    cases h
    cases hr
  · obtain ⟨c, p, -, -, heq⟩ := process_accepts hrej h
    simp only [Prod.mk.injEq] at heq
    obtain ⟨rfl, -⟩ := heq
    obtain ⟨a, b, c⟩ := fitCoordinate_spec _ _ p.x hx
    obtain ⟨a', b', c'⟩ := fitCoordinate_spec _ _ p.y hy
    exact ⟨a, b, a', b', c, c'⟩

/-- **C38, exact.** If the lower corner of the box has whole centimetres, non-empty results are in the box. -/
theorem C38_box_exact (s s' : PostState) (fused r : Position) (ts m : Int) (level : Level)
    (hx : level.geometry.boundingBox.minCorner.x ≤ level.geometry.boundingBox.maxCorner.x)
    (hy : level.geometry.boundingBox.minCorner.y ≤ level.geometry.boundingBox.maxCorner.y)
    (gx : ∃ k : ℤ, level.geometry.boundingBox.minCorner.x = k / 100)
    (gy : ∃ k : ℤ, level.geometry.boundingBox.minCorner.y = k / 100)
    (h : getProcessedPosition cs (allowed level) s fused ts m level = some (r, s')) (hr : r.isEmpty = false) :
    level.geometry.boundingBox.minCorner.x ≤ r.x ∧ r.x ≤ level.geometry.boundingBox.maxCorner.x ∧
    level.geometry.boundingBox.minCorner.y ≤ r.y ∧ r.y ≤ level.geometry.boundingBox.maxCorner.y := by
  obtain ⟨a, b, c, d, ⟨kx, ex⟩, ky, ey⟩ := C38_box s s' fused r ts m level hx hy h hr
  obtain ⟨lx, elx⟩ := gx
  obtain ⟨ly, ely⟩ := gy
  refine ⟨?_, b, ?_, d⟩
  · rw [ex, elx] at a
    rw [ex, elx]
    have : lx < kx + 1 := by
      have : (lx : ℝ) < kx + 1 := by linarith
      exact_mod_cast this
    have : (lx : ℝ) ≤ kx := by exact_mod_cast Int.lt_add_one_iff.mp this
    linarith
  · rw [ey, ely] at c
    rw [ey, ely]
    have : ly < ky + 1 := by
      have : (ly : ℝ) < ky + 1 := by linarith
      exact_mod_cast this
    have : (ly : ℝ) ≤ ky := by exact_mod_cast Int.lt_add_one_iff.mp this
    linarith

/-- A level whose box starts half a centimetre off the grid. -/
noncomputable def offGridLevel : Level :=
  ⟨"a", ⟨0, 0⟩, [], ⟨[], []⟩, ⟨[], ⟨⟨5 / 1000, 0⟩, ⟨10, 10⟩⟩, []⟩, NavGraph.run []⟩

/-- **C38, violation.** A position inside the box is reported outside of it, because the rounding comes after
the clamping. -/
theorem C38_outside_witness :
    (postRun { useSmoothing := false } (fun _ _ _ => True)
      [.process ⟨7 / 1000, 1, "a", 1, 1000, false, .INDOOR, 0⟩ 1000 0 offGridLevel]).map Prod.snd =
      some [⟨0, 1, "a", 0, 1000, false, .INDOOR, 0⟩] ∧
    (0 : ℝ) < offGridLevel.geometry.boundingBox.minCorner.x := by
  have f1 : toLongLong 5000 = 5000 := by norm_num [toLongLong]
  have f2 : ⌊(7 : ℝ) / 10⌋ = 0 := by norm_num [Int.floor_eq_iff]
  refine ⟨?_, by norm_num [offGridLevel]⟩
  simp only [postRun, List.foldl, Option.bind_some, postStep]
  unfold getProcessedPosition
  norm_num [isInsideMap, Estim.Box.Covers, offGridLevel, Position.toXY, f1, f2, smoothing, takeOver, stopDetected,
    snapToGraph, postInit, Position.default, fitInBox, fitCoordinate, recordOut]

end Verif.Post
