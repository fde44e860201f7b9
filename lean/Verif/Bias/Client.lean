import Verif.Bias.Lemmas

/-!
# C129: the two clients, call by call
-/

namespace Verif.Bias

open Verif Verif.Levels Verif.Nav
open Verif.Knn (Result shift)

/-- What is known in the two clients after the sensors and signals are evaluated. -/
structure OffSensed (d : ℝ) (x y : Sensed) : Prop where
  pre : y.pre = offPre d x.pre
  fusion : y.fusion = x.fusion
  info : y.info = x.info
  radio : Off d x.radio y.radio
  level : y.level = x.level
  levelId : y.levelId = x.levelId
  outdoor : y.outdoor = x.outdoor
  outdoorPos : y.outdoorPos = x.outdoorPos

variable {ls : List Level} {c : Cfg} {d : ℝ}

theorem detect_off (hc : Client ls c) (hd : ByDifferences ls c.cs) {a b : List RadioData} (h : Off d a b) :
    detectLevel c b = detectLevel c a := by
  have hb := hc.parts
  unfold detectLevel
  rw [hb.detector, createLevelEstimator, if_pos (.inr hd.algorithm)]
  refine floor_off ?_ h
  rw [hb.levels, collect_levels]
  exact hd.floors

theorem sense_off (hc : Client ls c) (hs : OffsetBlind c.env.radioSorts) (hd : ByDifferences ls c.cs) (s : State) {m : Measurement}
    (hm : SameHeard c.cs d m) : Rel (OffSensed d) (sense c s m) (sense c (offState d s) (off d m)) := by
  have hu : Radio.updateMeasurements c.pre (offState d s).pre (off d m) = offPre d (Radio.updateMeasurements c.pre s.pre m) := by
    rw [hc.parts.pre]
    exact update_off s.pre hm
  unfold sense
  rw [hu]
  generalize Radio.updateMeasurements c.pre s.pre m = pre
  dsimp only
  have e1 : Fusion.calculateDisplacement c.fusion (offState d s).fusion (offPre d pre).sensor (offPre d pre).currentTs =
      Fusion.calculateDisplacement c.fusion s.fusion pre.sensor pre.currentTs := rfl
  rw [e1]
  refine rel_andThen (rel_eq _) ?_
  rintro f _ rfl
  obtain ⟨x1, x2⟩ := extract_off hs d c.pre.buffer pre.buffer f.2.lastMotionTs
  have hr : Rel (Off d) (orThrow (Radio.extractRadioMeasurements c.env.radioSorts c.pre pre f.2.lastMotionTs).1)
      (orThrow (Radio.extractRadioMeasurements c.env.radioSorts c.pre (offPre d pre) f.2.lastMotionTs).1) := by
    unfold Radio.extractRadioMeasurements
    dsimp only
    have e2 : (offPre d pre).buffer = offBuf d pre.buffer := rfl
    rw [e2, x1, closest_off hs]
    rcases distances_off d c.pre (Radio.closestAps c.env.radioSorts c.pre
      (Radio.extractMeasurements c.env.radioSorts c.pre.buffer pre.buffer f.2.lastMotionTs).1) with ⟨h1, h2⟩ | ⟨x, y, h1, h2, h3⟩
    · rw [h1, h2]; trivial
    · rw [h1, h2]; exact h3
  have hp : (Radio.extractRadioMeasurements c.env.radioSorts c.pre (offPre d pre) f.2.lastMotionTs).2 =
      offPre d (Radio.extractRadioMeasurements c.env.radioSorts c.pre pre f.2.lastMotionTs).2 := by
    unfold Radio.extractRadioMeasurements
    dsimp only
    have e2 : (offPre d pre).buffer = offBuf d pre.buffer := rfl
    rw [e2, x2]
    rfl
  rw [hp]
  refine rel_andThen hr ?_
  intro ra rb hab
  rw [detect_off hc hd hab]
  refine rel_andThen (rel_eq _) ?_
  rintro detected _ rfl
  have e3 : Estim.outdoorPosition c.cs c.levels (offState d s).outdoor (offPre d pre).currentTs (offPre d pre).sensor (offPre d pre).nmea
      (offState d s).flagIndoorPos = Estim.outdoorPosition c.cs c.levels s.outdoor pre.currentTs pre.sensor pre.nmea s.flagIndoorPos := rfl
  rw [e3]
  refine rel_andThen (rel_eq _) ?_
  rintro o _ rfl
  exact ⟨rfl, rfl, rfl, hab, rfl, rfl, rfl, rfl⟩

/-- The two clients after the position is known. -/
structure OffLocated (d : ℝ) (x y : Located) : Prop where
  state : y.state = offState d x.state
  status : y.status = x.status
  azimuth : y.azimuth = x.azimuth

theorem locate_off (hc : Client ls c) (hd : ByDifferences ls c.cs) (s : State) {x y : Sensed} (h : OffSensed d x y) :
    Rel (OffLocated d) (locate c s x) (locate c (offState d s) y) := by
  obtain ⟨ypre, yfus, yinfo, yradio, ylevel, ylid, yout, ypos⟩ := y
  obtain ⟨h1, h2, h3, h4, h5, h6, h7, h8⟩ := h
  dsimp only at h1 h2 h3 h4 h5 h6 h7 h8
  subst h1 h2 h3 h5 h6 h7 h8
  unfold locate
  have e1 : timedOutLevel c ⟨offPre d x.pre, x.fusion, x.info, yradio, x.level, x.levelId, x.outdoor, x.outdoorPos⟩ = timedOutLevel c x := rfl
  dsimp only
  rw [e1]
  split_ifs
  · refine rel_andThen (rel_eq _) ?_
    rintro level _ rfl
    unfold locateIndoor
    have hi : indoorPosition c (offState d s).indoorPos level (offPre d x.pre).currentTs yradio =
        indoorPosition c s.indoorPos level x.pre.currentTs x.radio := by
      unfold indoorPosition
      rcases hc.parts.indoor with ⟨-, hk⟩ | ⟨hk, -⟩
      · rw [hk]
        dsimp only
        have hdm : (Knn.mkCfg c.env.triSorts c.env.rpSort (collect ls) c.cs).useDiffMode = true := hd.differences
        have := position_off hdm s.indoorPos level x.pre.currentTs h4
        have e : Knn.calculatePosition (Knn.mkCfg c.env.triSorts c.env.rpSort (collect ls) c.cs) (offState d s).indoorPos level
          (offPre d x.pre).currentTs yradio = _ := this
        rw [e]
      · exact absurd hd.algorithm hk
    dsimp only
    rw [hi]
    refine rel_andThen (rel_eq _) ?_
    rintro i _ rfl
    have e2 : Post.fusePositions c.cs (offState d s).post (offPre d x.pre).currentTs i.2.1 x.outdoorPos i.1 =
      Post.fusePositions c.cs s.post x.pre.currentTs i.2.1 x.outdoorPos i.1 := rfl
    rw [e2]
    refine rel_andThen (rel_eq _) ?_
    rintro hh _ rfl
    refine rel_andThen (rel_eq _) ?_
    rintro p _ rfl
    exact ⟨rfl, rfl, rfl⟩
  · exact ⟨rfl, rfl, rfl⟩
  · exact ⟨rfl, rfl, rfl⟩

theorem report_off (hd : ByDifferences ls c.cs) {x y : Sensed} {l l' : Located} (h : OffLocated d l l') :
    report c y l' = report c x l := by
  have e1 : l'.state.position = l.state.position := by rw [h.state]; rfl
  have ha : ∀ level r, altitudeOf c level r = .ok (some 0) := by
    intro level r
    unfold altitudeOf
    rw [hd.altitude]
    rfl
  unfold report
  simp only [e1, h.status, h.azimuth, ha]

theorem step_off (hc : Client ls c) (hs : OffsetBlind c.env.radioSorts) (hd : ByDifferences ls c.cs) (s : State) {m : Measurement}
    (hm : SameHeard c.cs d m) :
    Rel (fun r r' => r' = (offState d r.1, r.2)) (step c s m) (step c (offState d s) (off d m)) := by
  unfold step
  refine rel_andThen (sense_off hc hs hd s hm) ?_
  intro x y hxy
  refine rel_andThen (locate_off hc hd s hxy) ?_
  intro l l' hl
  rw [report_off hd hl (x := x)]
  refine rel_andThen (rel_eq _) ?_
  rintro out _ rfl
  have e : debugState y l'.state = debugState x l.state := by
    unfold debugState
    rw [hxy.info, hl.state]
    rfl
  show (_, _, _) = _
  rw [e, hl.state]

theorem off_ts (d : ℝ) (m : Measurement) : (off d m).ts = m.ts := by
  obtain ⟨data, ts⟩ := m
  cases data <;> rfl

theorem loop_off (hc : Client ls c) (hs : OffsetBlind c.env.radioSorts) (hd : ByDifferences ls c.cs) (ms : List Measurement)
    (s : State) (t : Int) (hm : ∀ m ∈ ms, SameHeard c.cs d m) :
    Rel (fun r r' => r' = (offState d r.1, r.2)) (loop c s t ms) (loop c (offState d s) t (ms.map (off d))) := by
  induction ms generalizing s t with
  | nil => rfl
  | cons m ms ih =>
    have hm' : ∀ m ∈ ms, SameHeard c.cs d m := fun x hx => hm x (by simp [hx])
    rw [List.map_cons, loop, loop, off_ts]
    split_ifs
    · exact ih s t hm'
    · refine rel_andThen (step_off hc hs hd s (hm m (by simp))) ?_
      rintro r _ rfl
      refine rel_andThen (ih r.1 m.ts hm') ?_
      rintro r' _ rfl
      rfl

theorem navigate_off (hc : Client ls c) (hs : OffsetBlind c.env.radioSorts) (hd : ByDifferences ls c.cs) (ms : List Measurement)
    (s : State) (hm : ∀ m ∈ ms, SameHeard c.cs d m) :
    Rel (fun r r' => r' = (offState d r.1, r.2)) (navigate c s ms) (navigate c (offState d s) (ms.map (off d))) := by
  cases ms with
  | nil => rfl
  | cons m ms =>
    have := loop_off hc hs hd (m :: ms) s m.ts hm
    unfold navigate
    rw [List.map_cons]
    rw [List.map_cons] at this
    dsimp only
    rw [off_ts]
    exact this

theorem all_off (hc : Client ls c) (hs : OffsetBlind c.env.radioSorts) (hd : ByDifferences ls c.cs) (batches : List (List Measurement))
    (s : State) (hm : ∀ b ∈ batches, ∀ m ∈ b, SameHeard c.cs d m) :
    Rel (fun r r' => r' = (offState d r.1, r.2)) (navigateAll c s batches) (navigateAll c (offState d s) (allOff d batches)) := by
  induction batches generalizing s with
  | nil => rfl
  | cons b bs ih =>
    have hm' : ∀ b ∈ bs, ∀ m ∈ b, SameHeard c.cs d m := fun x hx => hm x (by simp [hx])
    unfold allOff
    rw [List.map_cons, navigateAll, navigateAll]
    refine rel_andThen (navigate_off hc hs hd b s (hm b (by simp))) ?_
    rintro r _ rfl
    refine rel_andThen (ih r.1 hm') ?_
    rintro r' _ rfl
    rfl

theorem init_off (c : Cfg) (g : Garbage) : offState d (init c g) = init c g := rfl

end Verif.Bias
