import Verif.Nav.SafetyLemmas

/-!
# The invariant of the navigation client and its preservation by one measurement
-/

namespace Verif.Nav

open Verif.Levels
open Verif.Knn (Result)
open Verif.Smooth
open Verif.Post

/-! ## The constants -/

structure Built (ls : List Level) (c : Cfg) : Prop where
  levels : c.levels = collect ls
  pre : c.pre = Radio.mkCfg (collect ls) c.cs
  fusion : c.fusion = Fusion.fusionConfig c.cs
  detector : c.detector = createLevelEstimator (collect ls) c.cs
  noSignal : c.noSignal = 1000 * c.cs.noSignalTimeThreshold
  noAction : c.noAction = 1000 * c.cs.noActionTimeThreshold
  indoor : (c.cs.useAlgorithm = .KNN ∧ c.indoor = .knn (Knn.mkCfg c.env.triSorts c.env.rpSort (collect ls) c.cs)) ∨
    (c.cs.useAlgorithm ≠ .KNN ∧ ∃ A B, c.indoor = .zone A B)

theorem Client.parts {ls : List Level} {c : Cfg} (h : Client ls c) : Built ls c := by
  obtain ⟨se, hc⟩ := h.built
  unfold mkCfg at hc
  cases hi : createPositionEstimator c.env (collect ls) c.cs se with
  | none => rw [hi] at hc; simp at hc
  | some indoor =>
    rw [hi, Option.map_some, Option.some.injEq] at hc
    have hin : (c.cs.useAlgorithm = .KNN ∧ indoor = .knn (Knn.mkCfg c.env.triSorts c.env.rpSort (collect ls) c.cs)) ∨
        (c.cs.useAlgorithm ≠ .KNN ∧ ∃ A B, indoor = .zone A B) := by
      unfold createPositionEstimator at hi
      split_ifs at hi with hk
      · left
        exact ⟨hk, (Option.some.inj hi).symm⟩
      · right
        refine ⟨hk, ?_⟩
        cases hz : Estim.zoneParams se (collect ls) with
        | none => rw [hz] at hi; simp at hi
        | some ab =>
          rw [hz, Option.map_some, Option.some.injEq] at hi
          exact ⟨_, _, hi.symm⟩
    have e1 : c.indoor = indoor := by rw [← hc]
    rw [← e1] at hin
    refine ⟨?_, ?_, ?_, ?_, ?_, ?_, hin⟩ <;> rw [← hc]

/-! ## Levels -/

/-- A level id the level estimator may answer: none, or one of a level that the indoor estimator can use. -/
def LevelOk (ls : List Level) (c : Cfg) (id : String) : Prop :=
  id = "" ∨ ((∃ l ∈ ls, l.id = id) ∧ (c.cs.useAlgorithm = .KNN → ∃ tx, Knn.HasFingerprint (collect ls) id tx))

theorem hasFingerprint_of_mem {c : LevelCollector} {id : String} {f : Knn.Fingerprint}
    (h : f ∈ Knn.fingerprintsOf c id) : ∃ tx, Knn.HasFingerprint c id tx := by
  unfold Knn.fingerprintsOf at h
  cases hf : c.levels.reverse.find? (fun l => l.id == id) with
  | none => rw [hf] at h; simp at h
  | some l =>
    rw [hf] at h
    have hm : l ∈ c.levels := by simpa using List.mem_of_find?_eq_some hf
    have hid : l.id = id := by simpa using List.find?_some hf
    simp only [Knn.levelRadiomap, List.mem_flatMap, List.mem_map] at h
    obtain ⟨rp, hrp, p, hp, -⟩ := h
    exact ⟨p.1, l, hm, hid, rp, hrp, p, hp, rfl⟩

theorem detect_ok {ls : List Level} {c : Cfg} (hc : Client ls c) (radio : List RadioData) :
    ∃ d, detectLevel c radio = some d ∧ LevelOk ls c d := by
  have hb := hc.parts
  have hlv : (collect ls).levels = ls := (C12_lookup ls "").1
  unfold detectLevel
  rw [hb.detector, hb.levels]
  unfold createLevelEstimator
  by_cases hr : c.cs.useRadiomap = true ∨ c.cs.useAlgorithm = .KNN
  · rw [if_pos hr]
    obtain ⟨r, h1, h2⟩ := Knn.C28_level c.cs.useBestRefPointLevel (collect ls) radio
    refine ⟨_, h1, ?_⟩
    cases r with
    | none => exact Or.inl rfl
    | some l =>
      right
      obtain ⟨bef, aft, hl, -, hpos, -⟩ := h2
      refine ⟨⟨l, by rw [← hlv, hl]; simp, rfl⟩, fun _ => ?_⟩
      change ∃ tx, Knn.HasFingerprint (collect ls) l.id tx
      dsimp only at hpos
      by_cases hu : c.cs.useBestRefPointLevel = true
      · rw [if_pos hu] at hpos
        rcases Knn.C28_best_rp radio (Knn.fingerprintsOf (collect ls) l.id) with ⟨-, h0⟩ | ⟨⟨rp, h3, -⟩, -⟩
        · rw [h0] at hpos; exact absurd hpos (lt_irrefl _)
        · have hne : Knn.matched (Knn.fingerprintsOf (collect ls) l.id) radio rp ≠ [] := by
            intro h0; rw [h0] at h3; simp at h3
          obtain ⟨x, hx⟩ := List.exists_mem_of_ne_nil _ hne
          simp only [Knn.matched, List.mem_flatMap, List.mem_map, List.mem_filter] at hx
          obtain ⟨m, -, f, ⟨hf, -⟩, -⟩ := hx
          exact hasFingerprint_of_mem hf
      · rw [if_neg hu] at hpos
        obtain ⟨m, -, f, hf, -⟩ := (Knn.C28_score radio (Knn.fingerprintsOf (collect ls) l.id)).2.mp hpos
        exact hasFingerprint_of_mem hf
  · rw [if_neg hr]
    obtain ⟨r, h1, h2⟩ := LevelEst.C27_detected c.cs.useTxPower ls radio (collect ls) hlv
    refine ⟨_, h2, ?_⟩
    cases r with
    | none => exact Or.inl rfl
    | some l =>
      right
      obtain ⟨bef, aft, hl, -⟩ := h1
      exact ⟨⟨l, by rw [hl]; simp, rfl⟩, fun hk => absurd (Or.inr hk) hr⟩

theorem history_ok {P : String → Prop} (h : LevelEst.History) (hh : P h.current) (d : String) (hd : P d) :
    P (LevelEst.detectLevelUsingHistory h d).1 ∧ P (LevelEst.detectLevelUsingHistory h d).2.current := by
  unfold LevelEst.detectLevelUsingHistory
  dsimp only
  split_ifs <;> first | exact ⟨hh, hh⟩ | exact ⟨hd, hd⟩

theorem barometer_ok {P : String → Prop} (b : LevelEst.Barometer) (hb : P b.lastKnownLevel) (d : String) (hd : P d)
    (m : SensorMeasurement) :
    P (LevelEst.checkLevelChange b d m).1 ∧ P (LevelEst.checkLevelChange b d m).2.lastKnownLevel := by
  have hu : P (LevelEst.updateBuffers b m).lastKnownLevel := by
    unfold LevelEst.updateBuffers
    dsimp only
    split_ifs <;> exact hb
  have hl : ∀ b' : LevelEst.Barometer, P b'.lastKnownLevel → P (LevelEst.updateLevel b' d).lastKnownLevel := by
    intro b' hb'
    rw [LevelEst.updateLevel_eq]
    dsimp only
    split_ifs <;> first | exact hb' | exact hd
  unfold LevelEst.checkLevelChange
  dsimp only
  split_ifs
  · exact ⟨hd, hb⟩
  · exact ⟨hl _ hu, hl _ hu⟩

structure LevelsOk (P : String → Prop) (e : LevelEst.Estimator) : Prop where
  history : P e.history.current
  barometer : P e.barometer.lastKnownLevel

theorem calculateLevel_ok {P : String → Prop} (ub : Bool) (e : LevelEst.Estimator) (he : LevelsOk P e) (d : String)
    (hd : P d) (m : SensorMeasurement) :
    P (LevelEst.calculateLevel ub e d m).1 ∧ LevelsOk P (LevelEst.calculateLevel ub e d m).2 := by
  obtain ⟨h1, h2⟩ := history_ok (P := P) e.history he.history d hd
  obtain ⟨h3, h4⟩ := barometer_ok (P := P) e.barometer he.barometer _ h1 m
  unfold LevelEst.calculateLevel
  cases ub with
  | true => exact ⟨h3, h2, h4⟩
  | false => exact ⟨h1, h2, he.barometer⟩

/-! ## Radio measurements -/

theorem mapM_defined {α β : Type} (f : α → Option β) (l : List α) (h : ∀ a ∈ l, ∃ b, f a = some b) :
    ∃ r, l.mapM f = some r := by
  induction l with
  | nil => exact ⟨[], rfl⟩
  | cons a l ih =>
    obtain ⟨b, hb⟩ := h a List.mem_cons_self
    obtain ⟨r, hr⟩ := ih (fun x hx => h x (List.mem_cons_of_mem _ hx))
    exact ⟨b :: r, by simp [List.mapM_cons, hb, hr]⟩

theorem radio_defined {ls : List Level} {c : Cfg} (hc : Client ls c) (st : Radio.State) (t : Int) :
    ∃ radio, (Radio.extractRadioMeasurements c.env.radioSorts c.pre st t).1 = some radio := by
  unfold Radio.extractRadioMeasurements
  dsimp only
  apply mapM_defined
  intro m _
  rw [hc.parts.pre]
  obtain ⟨e, h, -⟩ := Radio.C22_distance ls hc.map.nodup c.cs m
  exact ⟨e, h⟩

/-! ## Altitude -/

theorem altitudeSum_defined (l : Level) (x y : ℝ) (ms : List RadioData)
    (hk : ∀ m ∈ ms, ∃ t, l.transmitter m.id = some t) (acc : Option ℝ × Bool) :
    ∃ r, Trilat.altitudeSum l x y ms acc = some r := by
  induction ms generalizing acc with
  | nil => exact ⟨acc, rfl⟩
  | cons m ms ih =>
    obtain ⟨t, ht⟩ := hk m List.mem_cons_self
    have hp : Trilat.txPoint l m.id = some t.point := by simp [Trilat.txPoint, ht]
    have ih' := ih (fun x hx => hk x (List.mem_cons_of_mem _ hx))
    unfold Trilat.altitudeSum
    rw [hp]
    dsimp only
    split
    · exact ih' acc
    · exact ih' _

theorem altitude_defined {sort : List RadioData → List RadioData}
    (hsort : SortsBy (fun a b => a.distance < b.distance) sort) (solve : List Trilat.Row → XYZPoint) (l : Level)
    (msr : List RadioData) : ∃ a, Trilat.calculateAltitude sort solve l msr = some a := by
  have hk : ∀ m ∈ getLevelRadioMeasurements RadioData.id l msr, ∃ t, l.transmitter m.id = some t := by
    intro m hm
    unfold getLevelRadioMeasurements at hm
    exact Option.isSome_iff_exists.mp (List.mem_filter.mp hm).2
  obtain ⟨res, h1, -, -, h2, -⟩ := Trilat.C50_intersect hsort l _ hk
  unfold Trilat.calculateAltitude
  rw [h1]
  dsimp only
  split_ifs
  · exact ⟨_, rfl⟩
  · cases res with
    | nil => exact ⟨_, rfl⟩
    | cons m1 rest =>
      have hk' : ∀ m ∈ m1 :: rest, ∃ t, l.transmitter m.id = some t := fun m hm => hk m (h2 m hm)
      obtain ⟨t, ht⟩ := hk' m1 List.mem_cons_self
      have hp : Trilat.txPoint l m1.id = some t.point := by simp [Trilat.txPoint, ht]
      obtain ⟨ps, hps⟩ := mapM_defined (fun m : RadioData => (Trilat.txPoint l m.id).map (fun p => (p, m.distance))) rest (by
        intro m hm
        obtain ⟨t, ht⟩ := hk' m (List.mem_cons_of_mem _ hm)
        exact ⟨(t.point, m.distance), by simp [Trilat.txPoint, ht]⟩)
      simp only [hp, hps]
      obtain ⟨⟨s, flag⟩, hs⟩ := altitudeSum_defined l
        ((solve (ps.map (fun p => Trilat.row t.point m1.distance p.1 p.2))).x + t.point.x)
        ((solve (ps.map (fun p => Trilat.row t.point m1.distance p.1 p.2))).y + t.point.y) (m1 :: rest) hk' (some 0, true)
      rw [hs]
      cases flag with
      | true => exact ⟨_, rfl⟩
      | false => cases s <;> exact ⟨_, rfl⟩

/-! ## The invariant -/

structure Inv (ls : List Level) (c : Cfg) (s : State) : Prop where
  fusion : ∃ j1 j2 ms infos pouts, Fusion.FInv c.fusion j1 j2 ms s.fusion infos pouts
  level : LevelsOk (LevelOk ls c) s.level
  indoor : Tame ls s.indoorPos
  buffer : c.cs.useGpsSigmaFilter = true → s.outdoor.buf.length ≤ c.cs.sigmaFilterWindow
  outdoor : Tame ls s.outdoor.last
  post : PostOk c.cs ls s.post
  position : Tame ls s.position
  prevGyro : s.prevGyro = none
  prevHeading : s.prevHeading = none ∨ s.prevHeading = some 0

theorem inv_init {ls : List Level} {c : Cfg} (hc : Client ls c) (g : Garbage) : Inv ls c (init c g) := by
  obtain ⟨s, infos, pouts, h1, h2⟩ := Fusion.fusion_inv c.fusion g.magn g.accel []
  have e : s = Fusion.fusionInit g.magn g.accel ∧ infos = [] := by
    unfold Fusion.fusionRun at h1
    simp at h1
    exact ⟨h1.1.symm, h1.2⟩
  refine ⟨⟨g.magn, g.accel, [], infos, pouts, ?_⟩, ⟨Or.inl rfl, Or.inl rfl⟩, tame_default ls, ?_, tame_default ls,
    postOk_init c.cs hc.settings ls, tame_default ls, rfl, Or.inl rfl⟩
  · have := h2
    rw [e.1] at this
    exact this
  · intro _; simp [init, Estim.outdoorInit]

/-! ## One measurement -/

structure SensedOk (ls : List Level) (c : Cfg) (x : Sensed) : Prop where
  fusion : ∃ j1 j2 ms infos pouts, Fusion.FInv c.fusion j1 j2 ms x.fusion infos pouts
  level : LevelsOk (LevelOk ls c) x.level
  levelId : LevelOk ls c x.levelId
  buffer : c.cs.useGpsSigmaFilter = true → x.outdoor.buf.length ≤ c.cs.sigmaFilterWindow
  outdoor : Tame ls x.outdoor.last
  outdoorPos : Tame ls x.outdoorPos

theorem sense_defined {ls : List Level} {c : Cfg} (hc : Client ls c) {s : State} (h : Inv ls c s) (m : Measurement) :
    ∃ x, sense c s m = .ok x ∧ SensedOk ls c x := by
  obtain ⟨j1, j2, ms, infos, pouts, hf⟩ := h.fusion
  set pre := Radio.updateMeasurements c.pre s.pre m with hpre
  obtain ⟨f', info, o, g1, g2, -⟩ := Fusion.fusion_step c.fusion j1 j2 ms s.fusion infos pouts hf pre.sensor pre.currentTs
  obtain ⟨radio, hr⟩ := radio_defined hc pre info.lastMotionTs
  obtain ⟨d, hd, hdok⟩ := detect_ok hc radio
  obtain ⟨l1, l2⟩ := calculateLevel_ok (P := LevelOk ls c) c.cs.useBarometer s.level h.level d hdok pre.sensor
  obtain ⟨out, st', o1, o2, o3, o4⟩ := outdoor_defined ls c.cs hc.settings c.levels
    (by rw [hc.parts.levels]; exact (C12_lookup ls "").1) s.outdoor h.buffer h.outdoor
    ⟨pre.currentTs, pre.sensor, pre.nmea, s.flagIndoorPos⟩
  refine ⟨⟨(Radio.extractRadioMeasurements c.env.radioSorts c.pre pre info.lastMotionTs).2, f', info, radio,
    (LevelEst.calculateLevel c.cs.useBarometer s.level d pre.sensor).2,
    (LevelEst.calculateLevel c.cs.useBarometer s.level d pre.sensor).1, st', out⟩, ?_,
    ⟨j1, j2, _, _, _, g2⟩, l2, l1, o2, o3, o4⟩
  unfold sense
  dsimp only at o1 ⊢
  rw [← hpre, g1]
  simp only [orUndefined, andThen]
  rw [hr]
  simp only [orThrow]
  rw [hd]
  simp only
  rw [o1]

theorem timedOut_ok {ls : List Level} {c : Cfg} {x : Sensed} (hx : SensedOk ls c x) : LevelOk ls c (timedOutLevel c x) := by
  unfold timedOutLevel
  dsimp only
  split_ifs <;> first | exact Or.inl rfl | exact hx.levelId

theorem indoor_defined {ls : List Level} {c : Cfg} (hc : Client ls c) (old : Position) (ho : Tame ls old) (level : Level)
    (hl : level ∈ ls) (hfp : c.cs.useAlgorithm = .KNN → ∃ tx, Knn.HasFingerprint (collect ls) level.id tx) (ts : Int)
    (radio : List RadioData) :
    ∃ r, indoorPosition c old level ts radio = .ok r ∧ Tame ls r.2.1 ∧ Tame ls r.2.2 ∧
      (r.1 = .OK ∨ r.1 = .NAVIGATION_ERROR ∨ r.1 = .NO_SOLUTION) := by
  have hlv : (collect ls).levels = ls := (C12_lookup ls "").1
  unfold indoorPosition
  rcases hc.parts.indoor with ⟨hk, hi⟩ | ⟨-, A, B, hi⟩
  · rw [hi]
    have hst := Knn.C32_status c.env.triSorts c.env.rpSort (collect ls) c.cs old level (by rw [hlv]; exact hl)
      (hc.map.radiomap level hl) ts radio
    dsimp only at hst ⊢
    have key : ∃ st p, Knn.calculatePosition (Knn.mkCfg c.env.triSorts c.env.rpSort (collect ls) c.cs) old level ts radio =
        .ok (st, p) ∧ Tame ls p ∧ (st = .OK ∨ st = .NAVIGATION_ERROR ∨ st = .NO_SOLUTION) := by
      by_cases hm : radio = []
      · exact ⟨_, _, hst.1 hm, ho, by simp⟩
      · obtain ⟨h1, h2, h3⟩ := hst.2.2 hm (hfp hk)
        by_cases he : c.cs.minNumOfMeasurementsForPositionCalculation ≤ (Knn.usable (collect ls) level.id radio).length
        · by_cases hs : c.cs.useTriangles = true → (StdMap.find? (Knn.triangulate c.env.triSorts (collect ls)) level.id).isSome
          · obtain ⟨x, y, h⟩ := h3 he hs
            exact ⟨_, _, h, ⟨rfl, fun _ => ⟨⟨level, hl, rfl⟩, by simp⟩⟩, by simp⟩
          · exact ⟨_, _, h2 he hs, ho, by simp⟩
        · exact ⟨_, _, h1 he, ho, by simp⟩
    obtain ⟨st, p, e, hp, hs⟩ := key
    rw [e]
    exact ⟨_, rfl, hp, hp, hs⟩
  · rw [hi]
    suffices h : Tame ls (Estim.zonePosition A B level ts radio).2 ∧
        ((Estim.zonePosition A B level ts radio).1 = .OK ∨ (Estim.zonePosition A B level ts radio).1 = .NAVIGATION_ERROR ∨
          (Estim.zonePosition A B level ts radio).1 = .NO_SOLUTION) from ⟨_, rfl, h.1, ho, h.2⟩
    obtain ⟨h1, h2⟩ := Estim.C33_zone A B level ts radio
    by_cases hk : radio.filter (fun m => (level.transmitter m.id).isSome) = []
    · rw [h1 hk]; exact ⟨tame_default ls, by simp⟩
    · obtain ⟨_, m, _, t, prec, -, -, -, -, e, -⟩ := h2 hk
      rw [e]
      exact ⟨⟨rfl, fun _ => ⟨⟨level, hl, rfl⟩, by simp⟩⟩, by simp⟩

/-- The correction of the heading never takes place. -/
theorem headingLogic_eq (info : Fusion.MotionInfo) (fused : Position) (hf : fused.heading = 0) (ph : Option ℝ)
    (hp : ph = none ∨ ph = some 0) :
    ∃ ph', headingLogic info fused ph none = .ok (info.azimuth, info.isAzimuthValid, ph', none) ∧
      (ph' = none ∨ ph' = some 0) := by
  refine ⟨if fused.isEmpty = false then some fused.heading else ph, ?_, ?_⟩
  · unfold headingLogic
    rcases hp with rfl | rfl
    · rfl
    · dsimp only
      rw [if_neg (by rw [hf]; simp)]
  · split_ifs
    · rw [hf]; exact Or.inr rfl
    · exact hp

/-- The statuses of the estimators and of the client. -/
def Usual (st : NavigationStatus) : Prop := st = .OK ∨ st = .NAVIGATION_ERROR ∨ st = .NO_SOLUTION ∨ st = .NO_LEVEL

/-- A level is used. -/
structure AtLevel (ls : List Level) (c : Cfg) (s : State) (x : Sensed) (lv : Level) (i : NavigationStatus × Position × Position)
    (p : Position × PostState) (ph : Option ℝ) : Prop where
  mem : lv ∈ ls
  id : lv.id = timedOutLevel c x
  indoor : indoorPosition c s.indoorPos lv x.pre.currentTs x.radio = .ok i
  usual : i.1 = .OK ∨ i.1 = .NAVIGATION_ERROR ∨ i.1 = .NO_SOLUTION
  tame : Tame ls (fusePositions c.cs s.post x.pre.currentTs i.2.1 x.outdoorPos i.1).1
  processed : getProcessedPosition c.cs (c.env.allowed lv) (fusePositions c.cs s.post x.pre.currentTs i.2.1 x.outdoorPos i.1).2
    (fusePositions c.cs s.post x.pre.currentTs i.2.1 x.outdoorPos i.1).1 x.pre.currentTs x.info.lastMotionTs lv = some p
  located : locate c s x = .ok ⟨⟨x.pre, x.fusion, x.level, i.2.2, x.outdoor, p.2, p.1, !i.2.1.isEmpty, ph, none⟩, i.1,
    finalAzimuth c x.info.azimuth x.info.isAzimuthValid (fusePositions c.cs s.post x.pre.currentTs i.2.1 x.outdoorPos i.1).1⟩
  inv : Inv ls c ⟨x.pre, x.fusion, x.level, i.2.2, x.outdoor, p.2, p.1, !i.2.1.isEmpty, ph, none⟩

theorem locate_level {ls : List Level} {c : Cfg} (hc : Client ls c) {s : State} (h : Inv ls c s) {x : Sensed}
    (hx : SensedOk ls c x) (hh : ∃ lv ∈ ls, lv.id = timedOutLevel c x) : ∃ lv i p ph, AtLevel ls c s x lv i p ph := by
  have hlv := C12_lookup ls (timedOutLevel c x)
  have hh := hlv.2.1.mpr hh
  have hne : level (collect ls) (timedOutLevel c x) ≠ none := by
    intro h0; rw [hlv.2.2.2.mp h0] at hh; cases hh
  obtain ⟨lv, hl⟩ := Option.ne_none_iff_exists'.mp hne
  have hf := hl
  rw [hlv.2.2.1] at hf
  have hmem : lv ∈ ls := List.mem_of_find?_eq_some hf
  have hid : lv.id = timedOutLevel c x := by simpa using List.find?_some hf
  have hfp : c.cs.useAlgorithm = .KNN → ∃ tx, Knn.HasFingerprint (collect ls) lv.id tx := by
    rcases timedOut_ok hx with h0 | h0
    · rw [h0] at hid; exact absurd hid (hc.map.named lv hmem)
    · rw [hid]; exact h0.2
  obtain ⟨i, hi, hi1, hi2, hi3⟩ := indoor_defined hc s.indoorPos h.indoor lv hmem hfp x.pre.currentTs x.radio
  obtain ⟨hf1, hf2⟩ := fuse_tame c.cs ls s.post h.post x.pre.currentTs i.2.1 x.outdoorPos hi1 hx.outdoorPos i.1
  obtain ⟨ph, hp1, hp2⟩ := headingLogic_eq x.info (fusePositions c.cs s.post x.pre.currentTs i.2.1 x.outdoorPos i.1).1
    hf1.heading s.prevHeading h.prevHeading
  obtain ⟨p, hp3, hp4, hp5⟩ := process_tame c.cs ls (c.env.allowed lv) _ hf2 _ hf1 x.pre.currentTs x.info.lastMotionTs lv
    (hc.map.graph lv hmem)
  refine ⟨lv, i, p, ph, hmem, hid, hi, hi3, hf1, hp3, ?_,
    ⟨hx.fusion, hx.level, hi2, hx.buffer, hx.outdoor, hp5, hp4, rfl, hp2⟩⟩
  unfold locate
  dsimp only
  rw [hc.parts.levels, if_pos hh, hl]
  simp only [orThrow, andThen]
  unfold locateIndoor
  rw [hi]
  simp only [andThen]
  rw [h.prevGyro, hp1]
  simp only
  rw [hp3]
  rfl

theorem locate_no_level {ls : List Level} {c : Cfg} (hc : Client ls c) (s : State) {x : Sensed}
    (hh : ¬ ∃ lv ∈ ls, lv.id = timedOutLevel c x) :
    (x.outdoorPos.isEmpty = false → locate c s x = .ok ⟨{ s with
      pre := x.pre, fusion := x.fusion, level := x.level, outdoor := x.outdoor, flagIndoorPos := false,
      position := x.outdoorPos }, .OK, x.info.azimuth⟩) ∧
    (x.outdoorPos.isEmpty = true → locate c s x = .ok ⟨{ s with
      pre := x.pre, fusion := x.fusion, level := x.level, outdoor := x.outdoor, flagIndoorPos := false },
      .NO_LEVEL, x.info.azimuth⟩) := by
  have hlv := C12_lookup ls (timedOutLevel c x)
  have hf : hasLevel c.levels (timedOutLevel c x) = false := by
    rw [hc.parts.levels]
    by_contra h0
    exact hh (hlv.2.1.mp (by simpa using h0))
  constructor
  · intro he
    unfold locate
    dsimp only
    rw [hf, he]
    simp
  · intro he
    unfold locate
    dsimp only
    rw [hf, he]
    simp

theorem locate_defined {ls : List Level} {c : Cfg} (hc : Client ls c) {s : State} (h : Inv ls c s) {x : Sensed}
    (hx : SensedOk ls c x) : ∃ l, locate c s x = .ok l ∧ Inv ls c l.state ∧ Usual l.status := by
  by_cases hh : ∃ lv ∈ ls, lv.id = timedOutLevel c x
  · obtain ⟨lv, i, p, ph, ha⟩ := locate_level hc h hx hh
    refine ⟨_, ha.located, ha.inv, ?_⟩
    rcases ha.usual with h | h | h
    · exact Or.inl h
    · exact Or.inr (Or.inl h)
    · exact Or.inr (Or.inr (Or.inl h))
  · obtain ⟨h1, h2⟩ := locate_no_level hc s hh
    cases he : x.outdoorPos.isEmpty with
    | false =>
      exact ⟨_, h1 he, ⟨hx.fusion, hx.level, h.indoor, hx.buffer, hx.outdoor, h.post, hx.outdoorPos, h.prevGyro,
        h.prevHeading⟩, Or.inl rfl⟩
    | true =>
      exact ⟨_, h2 he, ⟨hx.fusion, hx.level, h.indoor, hx.buffer, hx.outdoor, h.post, h.position, h.prevGyro,
        h.prevHeading⟩, Or.inr (Or.inr (Or.inr rfl))⟩

theorem level_of_mem {ls : List Level} (hn : (ls.map Level.id).Nodup) {l : Level} (hl : l ∈ ls) :
    level (collect ls) l.id = some l := by
  rw [(C12_lookup ls l.id).2.2.1]
  induction ls with
  | nil => simp at hl
  | cons a ls ih =>
    rw [List.find?_cons]
    rcases List.mem_cons.mp hl with rfl | hl
    · simp
    · have hne : a.id ≠ l.id := by
        intro e
        rw [List.map_cons, List.nodup_cons] at hn
        exact hn.1 (by rw [e]; exact List.mem_map.mpr ⟨l, hl, rfl⟩)
      have : (a.id == l.id) = false := by simpa using hne
      rw [this]
      exact ih (by rw [List.map_cons, List.nodup_cons] at hn; exact hn.2) hl

theorem altitudeOf_defined {ls : List Level} {c : Cfg} (hc : Client ls c) (l : Level) (radio : List RadioData) :
    ∃ a, altitudeOf c l radio = .ok a := by
  unfold altitudeOf
  split_ifs
  · obtain ⟨a, ha⟩ := altitude_defined hc.sort c.env.solve l radio
    rw [ha]
    exact ⟨_, rfl⟩
  · exact ⟨_, rfl⟩

/-- The output for a tame position. -/
theorem report_eq {ls : List Level} {c : Cfg} (hc : Client ls c) (x : Sensed) (l : Located) (hp : Tame ls l.state.position) :
    (l.state.position.isEmpty = true ∧
      report c x l = .ok { status := if l.status = .OK then .NAVIGATION_ERROR else l.status }) ∨
    (l.state.position.isEmpty = false ∧ ∃ lv ∈ ls, lv.id = l.state.position.levelId ∧ ∃ a,
      altitudeOf c lv x.radio = .ok a ∧
      report c x l = .ok
        { status := .OK
          posLevel := l.state.position.levelId
          posLatitude := (Geo.localToGps l.state.position.toXY lv.bindingPoint).latitude
          posLongitude := (Geo.localToGps l.state.position.toXY lv.bindingPoint).longitude
          posAltitude := a
          posR := some l.state.position.deviationM
          posOrientation := some (Fusion.toMinusPiPi l.azimuth)
          provider := some l.state.position.provider }) := by
  cases he : l.state.position.isEmpty with
  | true =>
    left
    refine ⟨rfl, ?_⟩
    unfold report
    simp [he]
  | false =>
    right
    refine ⟨rfl, ?_⟩
    obtain ⟨⟨lv, hlv, hid⟩, -⟩ := hp.level he
    obtain ⟨a, ha⟩ := altitudeOf_defined hc lv x.radio
    refine ⟨lv, hlv, hid, a, ha, ?_⟩
    have hne : l.state.position.levelId ≠ "" := by rw [← hid]; exact hc.map.named lv hlv
    unfold report
    simp only [he]
    rw [if_neg (by simp), if_pos hne, hc.parts.levels, ← hid, level_of_mem hc.map.nodup hlv]
    simp only [orThrow, andThen]
    rw [ha]
    rfl

theorem report_defined {ls : List Level} {c : Cfg} (hc : Client ls c) (x : Sensed) (l : Located)
    (hp : Tame ls l.state.position) : ∃ out, report c x l = .ok out := by
  rcases report_eq hc x l hp with ⟨-, h⟩ | ⟨-, lv, -, -, a, -, h⟩
  · exact ⟨_, h⟩
  · exact ⟨_, h⟩

theorem step_defined {ls : List Level} {c : Cfg} (hc : Client ls c) {s : State} (h : Inv ls c s) (m : Measurement) :
    ∃ x l out, sense c s m = .ok x ∧ locate c s x = .ok l ∧ report c x l = .ok out ∧
      step c s m = .ok (l.state, out, debugState x l.state) ∧ SensedOk ls c x ∧ Inv ls c l.state ∧ Usual l.status := by
  obtain ⟨x, hx, hxok⟩ := sense_defined hc h m
  obtain ⟨l, hl, hinv, hst⟩ := locate_defined hc h hxok
  obtain ⟨out, ho⟩ := report_defined hc x l hinv.position
  refine ⟨x, l, out, hx, hl, ho, ?_, hxok, hinv, hst⟩
  unfold step
  rw [hx]
  simp only [andThen]
  rw [hl]
  simp only
  rw [ho]

theorem runs_defined {ls : List Level} {c : Cfg} (hc : Client ls c) {s : State} (h : Inv ls c s) (ms : List Measurement) :
    ∃ s' outs, runs c s ms = .ok (s', outs) ∧ Inv ls c s' := by
  induction ms generalizing s with
  | nil => exact ⟨s, [], rfl, h⟩
  | cons m ms ih =>
    obtain ⟨x, l, out, -, -, -, hs, -, hi, -⟩ := step_defined hc h m
    obtain ⟨s', outs, h1, h2⟩ := ih hi
    refine ⟨s', (out, debugState x l.state) :: outs, ?_, h2⟩
    change andThen (step c s m) _ = _
    rw [hs]
    simp only [andThen]
    rw [h1]

theorem inv_reachable {ls : List Level} {c : Cfg} (hc : Client ls c) {s : State} (h : Reachable c s) : Inv ls c s := by
  induction h with
  | start g => exact inv_init hc g
  | call batch _ hn ih =>
    rw [navigate_eq] at hn
    obtain ⟨s', outs, h1, h2⟩ := runs_defined hc ih (records batch)
    rw [hn] at h1
    cases h1
    exact h2

end Verif.Nav
