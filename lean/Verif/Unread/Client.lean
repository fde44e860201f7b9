import Verif.Unread.Lemmas

/-!
# C131: the two clients, call by call
-/

namespace Verif.Unread

open Verif Verif.Levels Verif.Nav Verif.Same
open Verif.Knn (Result)
open Verif.Bias (Rel rel_andThen rel_eq)

variable {ls : List Level} {c : Cfg}

/-- What is known in the two clients after the sensors and signals are evaluated. -/
structure BareSensed (cs : CommonSettings) (x y : Sensed) : Prop where
  pre : y.pre = barePre cs x.pre
  fusion : y.fusion = x.fusion
  info : y.info = x.info
  radio : Alike (powerBit cs) x.radio y.radio
  level : y.level = x.level
  levelId : y.levelId = x.levelId
  outdoor : y.outdoor = x.outdoor
  outdoorPos : y.outdoorPos = x.outdoorPos

theorem detect_alike (hc : Client ls c) {x y : List RadioData} (h : Alike (powerBit c.cs) x y) : detectLevel c y = detectLevel c x := by
  have e : ∀ z, detectLevel c (z.map (bare (powerBit c.cs))) = detectLevel c z := by
    intro z
    unfold detectLevel
    rw [hc.parts.detector]
    by_cases hf : c.cs.useRadiomap = true ∨ c.cs.useAlgorithm = .KNN
    · simp only [createLevelEstimator, if_pos hf]
      refine radiomap_bare _ _ _ _ _ ?_
      by_cases hp : PowerRead c.cs
      · exact .inl (if_pos hp)
      · right
        rcases hf with hf | hf
        · cases hb : c.cs.useBestRefPointLevel with
          | false => rfl
          | true => exact absurd (.inr ⟨hf, hb⟩) hp
        · exact absurd (.inl hf) hp
    · simp only [createLevelEstimator, if_neg hf]
      exact transmitters_bare _ _ _ _
  unfold Alike at h
  rw [← e x, ← h, e]

theorem indoor_alike (hc : Client ls c) (p : Position) (l : Level) (u : Int) {x y : List RadioData} (h : Alike (powerBit c.cs) x y) :
    indoorPosition c p l u y = indoorPosition c p l u x := by
  have e : ∀ z, indoorPosition c p l u (z.map (bare (powerBit c.cs))) = indoorPosition c p l u z := by
    intro z
    rcases hc.parts.indoor with ⟨hk, -⟩ | ⟨-, A, B, ha⟩
    · have : powerBit c.cs = 1 := if_pos (.inl hk)
      rw [this]
      exact indoor_bare c p l u z
    · unfold indoorPosition
      rw [ha]
      dsimp only
      rw [zone_bare]
  unfold Alike at h
  rw [← e x, ← h, e]

theorem sense_bare (hc : Client ls c) (hs : ComparesOnly c.env.radioSorts) (s : State) (m : Measurement) :
    Rel (BareSensed c.cs) (sense c s m) (sense c (bareState c.cs s) (bareMsg c.cs m)) := by
  have hu : Radio.updateMeasurements c.pre (bareState c.cs s).pre (bareMsg c.cs m) = barePre c.cs (Radio.updateMeasurements c.pre s.pre m) :=
    update_bare c.cs c.pre s.pre m
  unfold sense
  rw [hu]
  generalize Radio.updateMeasurements c.pre s.pre m = pre
  dsimp only
  have e1 : Fusion.calculateDisplacement c.fusion (bareState c.cs s).fusion (barePre c.cs pre).sensor (barePre c.cs pre).currentTs =
      Fusion.calculateDisplacement c.fusion s.fusion pre.sensor pre.currentTs := displacement_bare _ _ _ _ _
  rw [e1]
  refine rel_andThen (rel_eq _) ?_
  rintro f _ rfl
  obtain ⟨x1, x2⟩ := extract_bare hs (powerBit_bit c.cs) c.pre.buffer pre.buffer f.2.lastMotionTs
  have hr : Rel (Alike (powerBit c.cs)) (orThrow (Radio.extractRadioMeasurements c.env.radioSorts c.pre pre f.2.lastMotionTs).1)
      (orThrow (Radio.extractRadioMeasurements c.env.radioSorts c.pre (barePre c.cs pre) f.2.lastMotionTs).1) := by
    unfold Radio.extractRadioMeasurements
    dsimp only
    have e2 : (barePre c.cs pre).buffer = bareBuf (powerBit c.cs) pre.buffer := rfl
    rw [e2]
    rcases distances_bare _ c.pre (closest_bare hs c.pre x1) with ⟨h1, h2⟩ | ⟨x, y, h1, h2, h3⟩
    · rw [h1, h2]; trivial
    · rw [h1, h2]; exact h3
  have hp : (Radio.extractRadioMeasurements c.env.radioSorts c.pre (barePre c.cs pre) f.2.lastMotionTs).2 =
      barePre c.cs (Radio.extractRadioMeasurements c.env.radioSorts c.pre pre f.2.lastMotionTs).2 := by
    unfold Radio.extractRadioMeasurements
    dsimp only
    have e2 : (barePre c.cs pre).buffer = bareBuf (powerBit c.cs) pre.buffer := rfl
    rw [e2, x2]
    rfl
  rw [hp]
  refine rel_andThen hr ?_
  intro ra rb hab
  rw [detect_alike hc hab]
  refine rel_andThen (rel_eq _) ?_
  rintro detected _ rfl
  have e3 : Estim.outdoorPosition c.cs c.levels (bareState c.cs s).outdoor (barePre c.cs pre).currentTs (barePre c.cs pre).sensor
      (barePre c.cs pre).nmea (bareState c.cs s).flagIndoorPos =
        Estim.outdoorPosition c.cs c.levels s.outdoor pre.currentTs pre.sensor pre.nmea s.flagIndoorPos := gps_bare _ _ _ _ _ _ _ _
  have e4 : ∀ e l, LevelEst.calculateLevel c.cs.useBarometer e l (barePre c.cs pre).sensor =
      LevelEst.calculateLevel c.cs.useBarometer e l pre.sensor := fun e l => floor_bare _ _ _ _
  rw [e3, e4]
  refine rel_andThen (rel_eq _) ?_
  rintro o _ rfl
  exact ⟨rfl, rfl, rfl, hab, rfl, rfl, rfl, rfl⟩

/-- The two clients after the position is known. -/
structure BareLocated (cs : CommonSettings) (x y : Located) : Prop where
  state : y.state = bareState cs x.state
  status : y.status = x.status
  azimuth : y.azimuth = x.azimuth

theorem locate_bare (hc : Client ls c) (s : State) {x y : Sensed} (h : BareSensed c.cs x y) :
    Rel (BareLocated c.cs) (locate c s x) (locate c (bareState c.cs s) y) := by
  obtain ⟨ypre, yfus, yinfo, yradio, ylevel, ylid, yout, ypos⟩ := y
  obtain ⟨h1, h2, h3, h4, h5, h6, h7, h8⟩ := h
  dsimp only at h1 h2 h3 h4 h5 h6 h7 h8
  subst h1 h2 h3 h5 h6 h7 h8
  unfold locate
  have e1 : timedOutLevel c ⟨barePre c.cs x.pre, x.fusion, x.info, yradio, x.level, x.levelId, x.outdoor, x.outdoorPos⟩ =
    timedOutLevel c x := rfl
  dsimp only
  rw [e1]
  split_ifs
  · refine rel_andThen (rel_eq _) ?_
    rintro level _ rfl
    unfold locateIndoor
    have hi : indoorPosition c (bareState c.cs s).indoorPos level (barePre c.cs x.pre).currentTs yradio =
        indoorPosition c s.indoorPos level x.pre.currentTs x.radio := indoor_alike hc _ _ _ h4
    dsimp only
    rw [hi]
    refine rel_andThen (rel_eq _) ?_
    rintro i _ rfl
    have e2 : Post.fusePositions c.cs (bareState c.cs s).post (barePre c.cs x.pre).currentTs i.2.1 x.outdoorPos i.1 =
      Post.fusePositions c.cs s.post x.pre.currentTs i.2.1 x.outdoorPos i.1 := rfl
    rw [e2]
    refine rel_andThen (rel_eq _) ?_
    rintro hh _ rfl
    refine rel_andThen (rel_eq _) ?_
    rintro p _ rfl
    exact ⟨rfl, rfl, rfl⟩
  · exact ⟨rfl, rfl, rfl⟩
  · exact ⟨rfl, rfl, rfl⟩

theorem report_bare (ha : c.cs.useAltitude = false) {x y : Sensed} {l l' : Located} (h : BareLocated c.cs l l') :
    report c y l' = report c x l := by
  have e1 : l'.state.position = l.state.position := by rw [h.state]; rfl
  have ha : ∀ level r, altitudeOf c level r = .ok (some 0) := by
    intro level r
    unfold altitudeOf
    rw [ha]
    rfl
  unfold report
  simp only [e1, h.status, h.azimuth, ha]

theorem step_bare (hc : Client ls c) (hs : ComparesOnly c.env.radioSorts) (ha : c.cs.useAltitude = false) (s : State) (m : Measurement) :
    Rel (fun r r' => r' = (bareState c.cs r.1, r.2)) (step c s m) (step c (bareState c.cs s) (bareMsg c.cs m)) := by
  unfold step
  refine rel_andThen (sense_bare hc hs s m) ?_
  intro x y hxy
  refine rel_andThen (locate_bare hc s hxy) ?_
  intro l l' hl
  rw [report_bare ha hl (x := x)]
  refine rel_andThen (rel_eq _) ?_
  rintro out _ rfl
  have e : debugState y l'.state = debugState x l.state := by
    unfold debugState
    rw [hxy.info, hl.state]
    rfl
  show (_, _, _) = _
  rw [e, hl.state]

theorem loop_bare (hc : Client ls c) (hs : ComparesOnly c.env.radioSorts) (ha : c.cs.useAltitude = false) (ms : List Measurement)
    (s : State) (t : Int) :
    Rel (fun r r' => r' = (bareState c.cs r.1, r.2)) (loop c s t ms) (loop c (bareState c.cs s) t (ms.map (bareMsg c.cs))) := by
  induction ms generalizing s t with
  | nil => rfl
  | cons m ms ih =>
    rw [List.map_cons, loop, loop, bareMsg_ts]
    split_ifs
    · exact ih s t
    · refine rel_andThen (step_bare hc hs ha s m) ?_
      rintro r _ rfl
      refine rel_andThen (ih r.1 m.ts) ?_
      rintro r' _ rfl
      rfl

theorem navigate_bare (hc : Client ls c) (hs : ComparesOnly c.env.radioSorts) (ha : c.cs.useAltitude = false) (ms : List Measurement)
    (s : State) :
    Rel (fun r r' => r' = (bareState c.cs r.1, r.2)) (navigate c s ms) (navigate c (bareState c.cs s) (ms.map (bareMsg c.cs))) := by
  cases ms with
  | nil => rfl
  | cons m ms =>
    have := loop_bare hc hs ha (m :: ms) s m.ts
    unfold navigate
    rw [List.map_cons]
    rw [List.map_cons] at this
    dsimp only
    rw [bareMsg_ts]
    exact this

theorem all_bare (hc : Client ls c) (hs : ComparesOnly c.env.radioSorts) (ha : c.cs.useAltitude = false)
    (batches : List (List Measurement)) (s : State) :
    Rel (fun r r' => r' = (bareState c.cs r.1, r.2)) (navigateAll c s batches)
      (navigateAll c (bareState c.cs s) (batches.map (List.map (bareMsg c.cs)))) := by
  induction batches generalizing s with
  | nil => rfl
  | cons b bs ih =>
    rw [List.map_cons, navigateAll, navigateAll]
    refine rel_andThen (navigate_bare hc hs ha b s) ?_
    rintro r _ rfl
    refine rel_andThen (ih r.1) ?_
    rintro r' _ rfl
    rfl

theorem calls_same {cs : CommonSettings} {calls calls' : List (List Measurement)} (h : AllSameRead cs calls calls') :
    calls'.map (List.map (bareMsg cs)) = calls.map (List.map (bareMsg cs)) := by
  unfold AllSameRead at h
  induction h with
  | nil => rfl
  | cons h1 _ ih =>
    rw [List.map_cons, List.map_cons, ih]
    congr 1
    induction h1 with
    | nil => rfl
    | cons h2 _ ih2 => rw [List.map_cons, List.map_cons, ih2, bare_same h2]

end Verif.Unread
