import Verif.Same.Lemmas

/-!
# C130: the two clients, call by call
-/

namespace Verif.Same

open Verif Verif.Levels Verif.Nav
open Verif.Knn (Result)
open Verif.Bias (Rel rel_andThen rel_eq)

variable {a b : CommonSettings}

/-- The two clients: made for the same building, from settings that agree. -/
structure SameCfg (c d : Cfg) : Prop where
  agree : Agree c.cs d.cs
  env : d.env = c.env
  levels : d.levels = c.levels
  noSignal : d.noSignal = c.noSignal
  noAction : d.noAction = c.noAction ∨ (0 < c.noAction ∧ 0 < d.noAction)
  detector : d.detector = c.detector
  indoor : ∀ p l u r, indoorPosition d p l u r = indoorPosition c p l u r
  preA : c.pre = Radio.mkCfg c.levels c.cs
  preB : d.pre = Radio.mkCfg c.levels d.cs
  fusionA : c.fusion = Fusion.fusionConfig c.cs
  fusionB : d.fusion = Fusion.fusionConfig d.cs

theorem byPrints_same (h : Agree a b) : FloorsByPrints b ↔ FloorsByPrints a := by
  unfold FloorsByPrints
  by_cases hk : a.useAlgorithm = .KNN
  · simp [hk, h.algorithm.mp hk]
  · rw [h.useRadiomap hk, h.algorithm]

theorem detector_same (h : Agree a b) (col : LevelCollector) : createLevelEstimator col b = createLevelEstimator col a := by
  by_cases hp : FloorsByPrints a
  · have hb := (byPrints_same h).mpr hp
    unfold FloorsByPrints at hp hb
    simp only [createLevelEstimator, if_pos hp, if_pos hb, h.useBestRefPointLevel hp]
  · have hb := mt (byPrints_same h).mp hp
    have e := h.useTxPower hp
    unfold FloorsByPrints at hp hb
    simp only [createLevelEstimator, if_neg hp, if_neg hb, e]

theorem noAction_same (h : Agree a b) : 1000 * b.noActionTimeThreshold = 1000 * a.noActionTimeThreshold ∨
    (0 < 1000 * a.noActionTimeThreshold ∧ 0 < 1000 * b.noActionTimeThreshold) := by
  rcases h.noActionTimeThreshold with h | ⟨h1, h2⟩
  · exact .inl (by rw [h])
  · exact .inr ⟨by omega, by omega⟩

theorem mkCfg_same (h : Agree a b) (env : Env) (col : LevelCollector) (p q : List (String × Estim.LevelSettings))
    (hl : a.useAlgorithm ≠ .KNN → q = p) :
    (mkCfg env col a p = none ∧ mkCfg env col b q = none) ∨
      ∃ c d, mkCfg env col a p = some c ∧ mkCfg env col b q = some d ∧ SameCfg c d := by
  have hno : 1000 * b.noSignalTimeThreshold = 1000 * a.noSignalTimeThreshold := by rw [h.noSignalTimeThreshold]
  unfold mkCfg createPositionEstimator
  by_cases hk : a.useAlgorithm = .KNN
  · rw [if_pos hk, if_pos (h.algorithm.mp hk)]
    refine .inr ⟨_, _, rfl, rfl, ⟨h, rfl, rfl, hno, noAction_same h, detector_same h col, ?_, rfl, rfl, rfl, rfl⟩⟩
    intro p l u r
    unfold indoorPosition
    dsimp only
    have e : Knn.mkCfg env.triSorts env.rpSort col b =
        { Knn.mkCfg env.triSorts env.rpSort col a with k := b.kNeighbors, useDiffMode := b.useDiffMode } := by
      simp only [Knn.mkCfg, h.useTriangles hk, h.minMeasurements hk]
    rw [e, knn_settings _ _ _ (h.useDiffMode hk)]
  · rw [if_neg hk, if_neg (mt h.algorithm.mpr hk), hl hk]
    cases Estim.zoneParams p col with
    | none => exact .inl ⟨rfl, rfl⟩
    | some ab =>
      exact .inr ⟨_, _, rfl, rfl, ⟨h, rfl, rfl, hno, noAction_same h, detector_same h col, fun _ _ _ _ => rfl, rfl, rfl, rfl, rfl⟩⟩

/-- The two clients hold the same, apart from what the settings keep from being read. -/
structure SameState (a : CommonSettings) (s t : State) : Prop where
  pre : t.pre = s.pre
  fusion : t.fusion = s.fusion
  level : t.level = s.level
  indoorPos : t.indoorPos = s.indoorPos
  outdoor : SameOutdoor a s.outdoor t.outdoor
  post : SamePost a s.post t.post
  position : t.position = s.position
  flagIndoorPos : t.flagIndoorPos = s.flagIndoorPos
  prevHeading : t.prevHeading = s.prevHeading
  prevGyro : t.prevGyro = s.prevGyro

variable {c d : Cfg}

/-- What is known in the two clients after the sensors and signals are evaluated; the motion is of the present moment, if any. -/
structure SameSensed (a : CommonSettings) (x y : Sensed) : Prop where
  pre : y.pre = x.pre
  fusion : y.fusion = x.fusion
  info : y.info = x.info
  radio : SameRadio a x.radio y.radio
  level : y.level = x.level
  levelId : y.levelId = x.levelId
  outdoor : SameOutdoor a x.outdoor y.outdoor
  outdoorPos : y.outdoorPos = x.outdoorPos
  motion : x.info.lastMotionTs = 0 ∨ x.info.lastMotionTs = x.pre.currentTs

theorem motion_now {f : Fusion.FusionConfig} {s : Fusion.FusionState} {m : SensorMeasurement} {t : Int}
    {r : Fusion.FusionState × Fusion.MotionInfo} (h : Fusion.calculateDisplacement f s m t = some r) :
    r.2.lastMotionTs = 0 ∨ r.2.lastMotionTs = t := by
  unfold Fusion.calculateDisplacement at h
  split at h
  · cases h
  · split at h
    · cases h
    · dsimp only at h
      split_ifs at h <;> simp only [Option.some.injEq] at h <;> subst h <;> first | exact .inr rfl | exact .inl rfl

theorem detect_bare (c : Cfg) (r : List RadioData) : detectLevel c (r.map (bare 1)) = detectLevel c r := by
  unfold detectLevel
  split
  · exact radiomap_bare 1 _ _ _ _ (.inl rfl)
  · exact transmitters_bare 1 _ _ _

theorem indoor_bare (c : Cfg) (p : Position) (l : Level) (u : Int) (r : List RadioData) :
    indoorPosition c p l u (r.map (bare 1)) = indoorPosition c p l u r := by
  unfold indoorPosition
  split
  · rw [knn_bare]
  · rw [zone_bare]

theorem sense_same (h : SameCfg c d) {s t : State} (hs : SameState c.cs s t) (m : Measurement) :
    Rel (SameSensed c.cs) (sense c s m) (sense d t m) := by
  have e1 : Radio.updateMeasurements d.pre t.pre m = Radio.updateMeasurements c.pre s.pre m := by
    rw [h.preA, h.preB, hs.pre]
    exact update_same h.agree _ _ _
  have e2 : ∀ st u v, Fusion.calculateDisplacement d.fusion st u v = Fusion.calculateDisplacement c.fusion st u v := by
    intro st u v
    rw [h.fusionA, h.fusionB]
    exact displacement_same h.agree _ _ _
  have e3 : ∀ st u, Both (SameRadio c.cs) (Radio.extractRadioMeasurements c.env.radioSorts c.pre st u).1
      (Radio.extractRadioMeasurements d.env.radioSorts d.pre st u).1 ∧
      (Radio.extractRadioMeasurements d.env.radioSorts d.pre st u).2 = (Radio.extractRadioMeasurements c.env.radioSorts c.pre st u).2 := by
    intro st u
    rw [h.preA, h.preB, h.env]
    exact extract_same h.agree _ _ _ _
  have e4 : ∀ x y, SameRadio c.cs x y → detectLevel d y = detectLevel c x := by
    intro x y hxy
    rw [← detect_bare c x, ← hxy.bare, detect_bare]
    unfold detectLevel
    rw [h.detector, h.levels]
  unfold sense
  simp only [e1, e2, hs.fusion, hs.level, hs.flagIndoorPos, h.agree.useBarometer]
  generalize Radio.updateMeasurements c.pre s.pre m = pre
  cases hf : Fusion.calculateDisplacement c.fusion s.fusion pre.sensor pre.currentTs with
  | none => trivial
  | some f =>
    have hmot := motion_now hf
    have eo : orUndefined (some f) = Result.ok f := rfl
    rw [eo]
    simp only [andThen]
    obtain ⟨k1, k2⟩ := e3 pre f.2.lastMotionTs
    rw [k2]
    rcases k1 with ⟨k1, k3⟩ | ⟨x, y, k1, k3, k4⟩
    · rw [k1, k3]; trivial
    · rw [k1, k3]
      have et : ∀ z : List RadioData, orThrow (some z) = Result.ok z := fun z => rfl
      rw [et, et]
      dsimp only
      rw [e4 x y k4]
      refine rel_andThen (rel_eq _) ?_
      rintro detected _ rfl
      rw [h.levels]
      rcases outdoor_same h.agree c.levels hs.outdoor pre.currentTs pre.sensor pre.nmea s.flagIndoorPos with
        ⟨g1, g2⟩ | ⟨u, v, g1, g2, g3, g4⟩
      · rw [g1, g2]; trivial
      · rw [g1, g2]
        exact ⟨rfl, rfl, rfl, k4, rfl, rfl, g4, g3, hmot⟩

/-- The two clients after the position is known. -/
structure SameLocated (a : CommonSettings) (x y : Located) : Prop where
  state : SameState a x.state y.state
  status : y.status = x.status
  azimuth : y.azimuth = x.azimuth

theorem timed_same (h : SameCfg c d) {x y : Sensed} (hx : SameSensed c.cs x y) : timedOutLevel d y = timedOutLevel c x := by
  unfold timedOutLevel
  rw [h.noSignal, hx.pre, hx.levelId, hx.info]
  rcases h.noAction with e | ⟨h1, h2⟩
  · rw [e]
  · have n1 : ∀ n : Int, 0 < n → ¬ (x.pre.currentTs - x.pre.lastSignalTs ≥ n ∧ x.pre.currentTs - x.info.lastMotionTs ≥ n ∧
        x.info.lastMotionTs > 0) := by
      intro n hn
      rcases hx.motion with hm | hm <;> omega
    dsimp only
    rw [if_neg (n1 _ h1), if_neg (n1 _ h2)]

theorem locate_same (h : SameCfg c d) {s t : State} (hs : SameState c.cs s t) {x y : Sensed} (hx : SameSensed c.cs x y) :
    Rel (SameLocated c.cs) (locate c s x) (locate d t y) := by
  have e1 := timed_same h hx
  have e2 : ∀ p l u, indoorPosition d p l u y.radio = indoorPosition c p l u x.radio := by
    intro p l u
    rw [h.indoor, ← indoor_bare c p l u x.radio, ← hx.radio.bare, indoor_bare]
  unfold locate
  dsimp only
  rw [e1, h.levels, hx.outdoorPos]
  split_ifs
  · refine rel_andThen (rel_eq _) ?_
    rintro level _ rfl
    unfold locateIndoor
    rw [e2, hs.indoorPos, hx.pre]
    refine rel_andThen (rel_eq _) ?_
    rintro i _ rfl
    obtain ⟨f1, f2⟩ := fuse_same h.agree hs.post x.pre.currentTs i.2.1 x.outdoorPos i.1
    dsimp only
    rw [hx.outdoorPos, hx.info, f1, hs.prevHeading, hs.prevGyro, h.env]
    refine rel_andThen (rel_eq _) ?_
    rintro hh _ rfl
    refine rel_andThen (processed_same h.agree f2 _ _ _ _ _) ?_
    rintro p q ⟨g1, g2⟩
    refine ⟨⟨rfl, hx.fusion, hx.level, rfl, hx.outdoor, g2, g1, rfl, rfl, rfl⟩, rfl, ?_⟩
    unfold finalAzimuth
    rw [h.agree.useEnuAzimuth]
  · exact ⟨⟨hx.pre, hx.fusion, hx.level, hs.indoorPos, hx.outdoor, hs.post, rfl, rfl, hs.prevHeading, hs.prevGyro⟩, rfl, by rw [hx.info]⟩
  · exact ⟨⟨hx.pre, hx.fusion, hx.level, hs.indoorPos, hx.outdoor, hs.post, hs.position, rfl, hs.prevHeading, hs.prevGyro⟩, rfl,
      by rw [hx.info]⟩

theorem report_same (h : SameCfg c d) {x y : Sensed} (hx : SameSensed c.cs x y) {l l' : Located} (hl : SameLocated c.cs l l') :
    report d y l' = report c x l := by
  have e : ∀ level, altitudeOf d level y.radio = altitudeOf c level x.radio := by
    intro level
    unfold altitudeOf
    rw [h.env, h.agree.useAltitude]
    by_cases hu : c.cs.useAltitude = true
    · rw [hx.radio.altitude hu]
    · rw [if_neg hu, if_neg hu]
  unfold report
  simp only [hl.state.position, hl.status, hl.azimuth, e, h.levels]

theorem step_same (h : SameCfg c d) {s t : State} (hs : SameState c.cs s t) (m : Measurement) :
    Rel (fun r r' => SameState c.cs r.1 r'.1 ∧ r'.2 = r.2) (step c s m) (step d t m) := by
  unfold step
  refine rel_andThen (sense_same h hs m) ?_
  intro x y hx
  refine rel_andThen (locate_same h hs hx) ?_
  intro l l' hl
  rw [report_same h hx hl]
  refine rel_andThen (rel_eq _) ?_
  rintro out _ rfl
  refine ⟨hl.state, ?_⟩
  unfold debugState
  rw [hl.state.post.indoorPos, hl.state.post.outdoorPos, hx.info]

theorem loop_same (h : SameCfg c d) (ms : List Measurement) {s t : State} (hs : SameState c.cs s t) (u : Int) :
    Rel (fun r r' => SameState c.cs r.1 r'.1 ∧ r'.2 = r.2) (loop c s u ms) (loop d t u ms) := by
  induction ms generalizing s t u with
  | nil => exact ⟨hs, rfl⟩
  | cons m ms ih =>
    rw [loop, loop]
    split_ifs
    · exact ih hs u
    · refine rel_andThen (step_same h hs m) ?_
      rintro r r' ⟨h1, h2⟩
      refine rel_andThen (ih h1 m.ts) ?_
      rintro q q' ⟨h3, h4⟩
      exact ⟨h3, by rw [h2, h4]⟩

theorem all_same (h : SameCfg c d) (calls : List (List Measurement)) {s t : State} (hs : SameState c.cs s t) :
    Rel (fun r r' => SameState c.cs r.1 r'.1 ∧ r'.2 = r.2) (navigateAll c s calls) (navigateAll d t calls) := by
  induction calls generalizing s t with
  | nil => exact ⟨hs, rfl⟩
  | cons ms calls ih =>
    rw [navigateAll, navigateAll]
    have h0 : Rel (fun r r' => SameState c.cs r.1 r'.1 ∧ r'.2 = r.2) (navigate c s ms) (navigate d t ms) := by
      cases ms with
      | nil => exact ⟨hs, rfl⟩
      | cons m ms => exact loop_same h (m :: ms) hs m.ts
    refine rel_andThen h0 ?_
    rintro r r' ⟨h1, h2⟩
    refine rel_andThen (ih h1) ?_
    rintro q q' ⟨h3, h4⟩
    exact ⟨h3, by rw [h2, h4]⟩

theorem answers_same (h : Agree a b) (env : Env) (col : LevelCollector) (p q : List (String × Estim.LevelSettings))
    (hl : a.useAlgorithm ≠ .KNN → q = p) (g : Garbage) (calls : List (List Measurement)) :
    answers env col b q g calls = answers env col a p g calls := by
  unfold answers
  rcases mkCfg_same h env col p q hl with ⟨h1, h2⟩ | ⟨c, d, h1, h2, h3⟩
  · rw [h1, h2]
  · rw [h1, h2]
    dsimp only
    have hi : SameState c.cs (init c g) (init d g) :=
      ⟨rfl, rfl, rfl, rfl, ⟨rfl, fun _ => rfl⟩, init_same h3.agree, rfl, rfl, rfl, rfl⟩
    have hr := all_same h3 calls hi
    cases hc : navigateAll c (init c g) calls <;> cases hd : navigateAll d (init d g) calls <;> rw [hc, hd] at hr <;>
      first | exact hr.elim | rfl | skip
    simp only [hr.2]

end Verif.Same
