import Verif.Label.Places
import Verif.Project.Example

/-!
# Property theorems for C153: the names of the floors are labels
-/

namespace Verif.Label

open Verif.Levels Verif.Nav
open Verif.Geo (XYPoint GeoPoint)
open Verif.Knn (Result)

variable {f : String → String}

theorem pushBad_label (l : Level) (p : XYZPoint) (m : RadioData) (ms : List RadioData) :
    Trilat.pushBad (relabel f l) p m ms = Trilat.pushBad l p m ms := by
  induction ms with
  | nil => rfl
  | cons a ms ih =>
    unfold Trilat.pushBad
    rw [ih]
    rfl

theorem badLoop_label (l : Level) (all ms bad : List RadioData) :
    Trilat.badLoop (relabel f l) all ms bad = Trilat.badLoop l all ms bad := by
  induction ms generalizing bad with
  | nil => rfl
  | cons a ms ih =>
    unfold Trilat.badLoop
    simp only [pushBad_label, ih]
    rfl

theorem altitudeSum_label (l : Level) (x y : ℝ) (ms : List RadioData) (acc : Option ℝ × Bool) :
    Trilat.altitudeSum (relabel f l) x y ms acc = Trilat.altitudeSum l x y ms acc := by
  induction ms generalizing acc with
  | nil => rfl
  | cons a ms ih =>
    unfold Trilat.altitudeSum
    simp only [ih]
    rfl

theorem altitude_label (sort : List RadioData → List RadioData) (solve : List Trilat.Row → XYZPoint) (l : Level) (ms : List RadioData) :
    Trilat.calculateAltitude sort solve (relabel f l) ms = Trilat.calculateAltitude sort solve l ms := by
  have h1 : ∀ i, Trilat.txPoint (relabel f l) i = Trilat.txPoint l i := fun _ => rfl
  have h2 : getLevelRadioMeasurements RadioData.id (relabel f l) ms = getLevelRadioMeasurements RadioData.id l ms := rfl
  unfold Trilat.calculateAltitude Trilat.getIntersected
  simp only [badLoop_label, altitudeSum_label, h1, h2]

/-- The detectors of the level. -/
inductive SameDetector (f : String → String) : LevelDetector → LevelDetector → Prop where
  | radiomap {b : Bool} {m m' : List (String × List Knn.Fingerprint)} (h : SameEntries f m m') : SameDetector f (.radiomap b m) (.radiomap b m')
  | transmitters {b : Bool} : SameDetector f (.transmitters b) (.transmitters b)

/-- The estimators of the place. -/
inductive SameIndoor (f : String → String) : Indoor → Indoor → Prop where
  | knn {k k' : Knn.Cfg} (h : SameKnn f k k') : SameIndoor f (.knn k) (.knn k')
  | zone {A A' B B' : List (String × ℝ)} (hA : SameEntries f A A') (hB : SameEntries f B B') : SameIndoor f (.zone A B) (.zone A' B')

/-- A client of the renamed map. -/
structure SameClient (f : String → String) (c c' : Cfg) : Prop where
  env : c'.env = c.env
  cs : c'.cs = c.cs
  levels : SameMap f c.levels c'.levels
  noSignal : c'.noSignal = c.noSignal
  noAction : c'.noAction = c.noAction
  detector : SameDetector f c.detector c'.detector
  indoor : SameIndoor f c.indoor c'.indoor
  pre : c.pre = Radio.mkCfg c.levels c.cs
  pre' : c'.pre = Radio.mkCfg c'.levels c.cs
  fusion : c'.fusion = c.fusion
  allowed : East.ReadsGeometry c.env

/-- The states. -/
structure SameState (f : String → String) (s s' : State) : Prop where
  pre : s'.pre = s.pre
  fusion : s'.fusion = s.fusion
  level : SameEstimator f s.level s'.level
  indoorPos : s'.indoorPos = ren f s.indoorPos
  outdoor : s'.outdoor = renO f s.outdoor
  post : s'.post = renP f s.post
  position : s'.position = ren f s.position
  flagIndoorPos : s'.flagIndoorPos = s.flagIndoorPos
  prevHeading : s'.prevHeading = s.prevHeading
  prevGyro : s'.prevGyro = s.prevGyro

/-- What is known in the middle of a step. -/
structure SameSensed (f : String → String) (x x' : Sensed) : Prop where
  pre : x'.pre = x.pre
  fusion : x'.fusion = x.fusion
  info : x'.info = x.info
  radio : x'.radio = x.radio
  level : SameEstimator f x.level x'.level
  levelId : x'.levelId = f x.levelId
  outdoor : x'.outdoor = renO f x.outdoor
  outdoorPos : x'.outdoorPos = ren f x.outdoorPos

/-- What is known after the place was found. -/
structure SameLocated (f : String → String) (l l' : Located) : Prop where
  state : SameState f l.state l'.state
  status : l'.status = l.status
  azimuth : l'.azimuth = l.azimuth

section
variable (hf : Renaming f) {c c' : Cfg} (h : SameClient f c c')
include hf h

theorem detect_label (radio : List RadioData) : detectLevel c' radio = (detectLevel c radio).map f := by
  unfold detectLevel
  have hd := h.detector
  revert hd
  generalize c.detector = d
  generalize c'.detector = d'
  intro hd
  cases hd with
  | radiomap hm => exact radiomap_label hf h.levels _ hm radio
  | transmitters => exact transmitters_label hf h.levels _ radio

theorem sense_label {s s' : State} (hs : SameState f s s') (m : Measurement) : Alike (SameSensed f) (sense c s m) (sense c' s' m) := by
  unfold sense
  dsimp only
  have e1 : Radio.updateMeasurements c'.pre s'.pre m = Radio.updateMeasurements c.pre s.pre m := by
    rw [h.pre', h.pre, hs.pre, update_label h.levels]
  have e2 : ∀ pre t, Radio.extractRadioMeasurements c.env.radioSorts c'.pre pre t = Radio.extractRadioMeasurements c.env.radioSorts c.pre pre t := by
    intro pre t
    rw [h.pre', h.pre, extract_label h.levels]
  rw [e1, h.fusion, h.env, h.cs, hs.fusion, hs.outdoor, hs.flagIndoorPos]
  generalize Radio.updateMeasurements c.pre s.pre m = pre
  refine alike_then (alike_same _) ?_
  rintro q _ rfl
  rw [e2]
  refine alike_then (alike_same _) ?_
  rintro radio _ rfl
  rw [detect_label hf h]
  refine alike_then (alike_throw (R := fun d d' => d' = f d) (fun _ => rfl)) ?_
  rintro d _ rfl
  rw [outdoor_label hf h.levels]
  refine alike_then (alike_undefined (R := fun r r' => r' = (ren f r.1, renO f r.2)) (fun _ => rfl)) ?_
  rintro o _ rfl
  obtain ⟨h1, h2⟩ := calculate_label hf hs.level c.cs.useBarometer d pre.sensor
  exact ⟨rfl, rfl, rfl, rfl, h2, h1, rfl, rfl⟩

theorem indoor_label (p : Position) (l : Level) (ts : Int) (radio : List RadioData) :
    Alike (fun r r' => r' = (r.1, ren f r.2.1, ren f r.2.2)) (indoorPosition c p l ts radio) (indoorPosition c' (ren f p) (relabel f l) ts radio) := by
  unfold indoorPosition
  have hi := h.indoor
  revert hi
  generalize c.indoor = i
  generalize c'.indoor = i'
  intro hi
  cases hi with
  | knn hk =>
    refine alike_then (knn_label hk p l ts radio) ?_
    rintro r _ rfl
    exact rfl
  | zone hA hB =>
    dsimp only
    rw [zone_label hf hA hB]
    exact rfl

theorem locate_label {s s' : State} (hs : SameState f s s') {x x' : Sensed} (hx : SameSensed f x x') :
    Alike (SameLocated f) (locate c s x) (locate c' s' x') := by
  have ht : timedOutLevel c' x' = f (timedOutLevel c x) := by
    unfold timedOutLevel
    dsimp only
    rw [h.noSignal, h.noAction, hx.pre, hx.info, hx.levelId]
    split_ifs <;> first | rfl | exact hf.empty.symm
  unfold locate
  dsimp only
  rw [ht, has_label h.levels, level_label h.levels]
  by_cases hl : hasLevel c.levels (timedOutLevel c x) = true
  · rw [if_pos hl, if_pos hl]
    refine alike_then (alike_throw (R := fun l l' => l' = relabel f l) (fun _ => rfl)) ?_
    rintro l _ rfl
    have ha : c'.env.allowed (relabel f l) = c.env.allowed l := by
      rw [h.env]
      exact h.allowed _ _ rfl
    unfold locateIndoor
    rw [hs.indoorPos, hx.pre, hx.radio, ha, hx.outdoorPos, hs.post, hx.info, hs.prevHeading, hs.prevGyro, h.cs]
    refine alike_then (indoor_label hf h s.indoorPos l x.pre.currentTs x.radio) ?_
    rintro i _ rfl
    dsimp only
    rw [fuse_label]
    have hh : headingLogic x.info (ren f (Post.fusePositions c.cs s.post x.pre.currentTs i.2.1 x.outdoorPos i.1).1) s.prevHeading s.prevGyro =
      headingLogic x.info (Post.fusePositions c.cs s.post x.pre.currentTs i.2.1 x.outdoorPos i.1).1 s.prevHeading s.prevGyro := rfl
    rw [hh]
    refine alike_then (alike_same _) ?_
    rintro hd _ rfl
    rw [processed_label hf]
    refine alike_then (alike_undefined (R := fun r r' => r' = (ren f r.1, renP f r.2)) (fun _ => rfl)) ?_
    rintro p _ rfl
    refine ⟨⟨rfl, hx.fusion, hx.level, rfl, hx.outdoor, rfl, rfl, rfl, rfl, rfl⟩, rfl, ?_⟩
    unfold finalAzimuth
    rw [h.cs]
    rfl
  · rw [if_neg hl, if_neg hl, hx.outdoorPos]
    by_cases ho : x.outdoorPos.isEmpty = false
    · rw [if_pos ho, if_pos (show (ren f x.outdoorPos).isEmpty = false from ho)]
      exact ⟨⟨hx.pre, hx.fusion, hx.level, hs.indoorPos, hx.outdoor, hs.post, rfl, rfl, hs.prevHeading, hs.prevGyro⟩, rfl, by rw [hx.info]⟩
    · rw [if_neg ho, if_neg (show ¬ (ren f x.outdoorPos).isEmpty = false from ho)]
      exact ⟨⟨hx.pre, hx.fusion, hx.level, hs.indoorPos, hx.outdoor, hs.post, hs.position, rfl, hs.prevHeading, hs.prevGyro⟩, rfl, by rw [hx.info]⟩

theorem report_label {x x' : Sensed} (hx : SameSensed f x x') {l l' : Located} (hl : SameLocated f l l') :
    Alike (fun o o' => o' = { o with posLevel := f o.posLevel }) (report c x l) (report c' x' l') := by
  unfold report
  dsimp only
  rw [hl.state.position, hl.status, hl.azimuth, hx.radio]
  have e1 : (ren f l.state.position).isEmpty = l.state.position.isEmpty := rfl
  have e2 : (ren f l.state.position).levelId = f l.state.position.levelId := rfl
  rw [e1, e2]
  by_cases h1 : l.state.position.isEmpty = true
  · rw [if_pos h1, if_pos h1]
    simp only [Alike, hf.empty]
  rw [if_neg h1, if_neg h1]
  by_cases h2 : l.state.position.levelId ≠ ""
  · rw [if_pos h2, if_pos (fun e => h2 (hf.injective (e.trans hf.empty.symm))), level_label h.levels]
    refine alike_then (alike_throw (R := fun l l' => l' = relabel f l) (fun _ => rfl)) ?_
    rintro lv _ rfl
    have ha : altitudeOf c' (relabel f lv) x.radio = altitudeOf c lv x.radio := by
      unfold altitudeOf
      rw [h.cs, h.env, altitude_label]
    rw [ha]
    refine alike_then (alike_same _) ?_
    rintro a _ rfl
    exact rfl
  · have h3 : l.state.position.levelId = "" := not_not.mp h2
    rw [if_neg h2, if_neg (by rw [h3, hf.empty]; simp)]
    exact rfl

theorem step_label {s s' : State} (hs : SameState f s s') (m : Measurement) :
    Alike (fun r r' => SameState f r.1 r'.1 ∧ r'.2 = relabelOut f r.2) (step c s m) (step c' s' m) := by
  unfold step
  refine alike_then (sense_label hf h hs m) (fun x x' hx => ?_)
  refine alike_then (locate_label hf h hs hx) (fun l l' hl => ?_)
  refine alike_then (report_label hf h hx hl) ?_
  rintro o _ rfl
  refine ⟨hl.state, ?_⟩
  unfold relabelOut debugState
  dsimp only
  rw [hx.info, hl.state.post]
  rfl

theorem loop_label {s s' : State} (hs : SameState f s s') (t : Int) (ms : List Measurement) :
    Alike (fun r r' => SameState f r.1 r'.1 ∧ r'.2 = r.2.map (relabelOut f)) (loop c s t ms) (loop c' s' t ms) := by
  induction ms generalizing s s' t with
  | nil => exact ⟨hs, rfl⟩
  | cons m ms ih =>
    unfold loop
    by_cases ht : t > m.ts
    · rw [if_pos ht, if_pos ht]
      exact ih hs t
    · rw [if_neg ht, if_neg ht]
      refine alike_then (step_label hf h hs m) ?_
      rintro r r' ⟨h1, h2⟩
      refine alike_then (ih h1 m.ts) ?_
      rintro q q' ⟨h3, h4⟩
      refine ⟨h3, ?_⟩
      change (r'.2.1, r'.2.2) :: q'.2 = relabelOut f (r.2.1, r.2.2) :: q.2.map (relabelOut f)
      rw [h4, ← h2]

theorem navigate_label {s s' : State} (hs : SameState f s s') (ms : List Measurement) :
    Alike (fun r r' => SameState f r.1 r'.1 ∧ r'.2 = r.2.map (relabelOut f)) (navigate c s ms) (navigate c' s' ms) := by
  cases ms with
  | nil => exact ⟨hs, rfl⟩
  | cons m ms => exact loop_label hf h hs m.ts (m :: ms)

theorem all_label {s s' : State} (hs : SameState f s s') (calls : List (List Measurement)) :
    Alike (fun r r' => SameState f r.1 r'.1 ∧ r'.2 = r.2.map (relabelOut f)) (navigateAll c s calls) (navigateAll c' s' calls) := by
  induction calls generalizing s s' with
  | nil => exact ⟨hs, rfl⟩
  | cons b bs ih =>
    unfold navigateAll
    refine alike_then (navigate_label hf h hs b) ?_
    rintro r r' ⟨h1, h2⟩
    refine alike_then (ih h1) ?_
    rintro q q' ⟨h3, h4⟩
    refine ⟨h3, ?_⟩
    change r'.2 ++ q'.2 = (r.2 ++ q.2).map (relabelOut f)
    rw [List.map_append, h2, h4]

end

/-- **C153.** A client is made for a map, and another one with the same settings for the same map with other names of the floors; the
settings of the floors are found under the new names. The second client can be made if the first can, and for all calls it gives the same
answers with the new names, or fails in the same way. All settings are allowed. -/
theorem C153_labels (hf : Renaming f) {env : Env} (hr : East.ReadsGeometry env) {col col' : LevelCollector} {cs : CommonSettings}
    {sets sets' : List (String × Estim.LevelSettings)} {c : Cfg} (hb : mkCfg env col cs sets = some c) (hmap : SameMap f col col')
    (hsets : SameEntries f sets sets') :
    ∃ c', mkCfg env col' cs sets' = some c' ∧ ∀ (g : Garbage) (calls : List (List Measurement)),
      Answers f (navigateAll c (init c g) calls) (navigateAll c' (init c' g) calls) := by
  have hdet : SameDetector f (createLevelEstimator col cs) (createLevelEstimator col' cs) := by
    unfold createLevelEstimator
    split_ifs
    · exact .radiomap (maps_label hf hmap)
    · exact .transmitters
  have hpos : (createPositionEstimator env col cs sets = none ∧ createPositionEstimator env col' cs sets' = none) ∨
      ∃ i i', createPositionEstimator env col cs sets = some i ∧ createPositionEstimator env col' cs sets' = some i' ∧ SameIndoor f i i' := by
    unfold createPositionEstimator
    split_ifs
    · refine .inr ⟨_, _, rfl, rfl, .knn ⟨rfl, rfl, rfl, rfl, rfl, ?_, ?_, ?_⟩⟩
      · exact triangles_label hf hmap env.triSorts
      · exact refs_label hf hmap
      · exact maps_label hf hmap
    · rcases params_label hf hmap hsets with ⟨h1, h2⟩ | ⟨ab, ab', h1, h2, h3, h4⟩
      · rw [h1, h2]
        exact .inl ⟨rfl, rfl⟩
      · rw [h1, h2]
        exact .inr ⟨_, _, rfl, rfl, .zone h3 h4⟩
  unfold mkCfg at hb ⊢
  rcases hpos with ⟨h1, -⟩ | ⟨i, i', h1, h2, hi⟩
  · rw [h1] at hb
    cases hb
  · rw [h1] at hb
    rw [h2]
    simp only [Option.map_some, Option.some.injEq] at hb ⊢
    refine ⟨_, rfl, fun g calls => ?_⟩
    subst hb
    let c : Cfg :=
      { env := env, cs := cs, levels := col, noSignal := 1000 * cs.noSignalTimeThreshold, noAction := 1000 * cs.noActionTimeThreshold,
        detector := createLevelEstimator col cs, indoor := i, pre := Radio.mkCfg col cs, fusion := Fusion.fusionConfig cs }
    let c' : Cfg :=
      { env := env, cs := cs, levels := col', noSignal := 1000 * cs.noSignalTimeThreshold, noAction := 1000 * cs.noActionTimeThreshold,
        detector := createLevelEstimator col' cs, indoor := i', pre := Radio.mkCfg col' cs, fusion := Fusion.fusionConfig cs }
    have hc : SameClient f c c' := ⟨rfl, rfl, hmap, rfl, rfl, hdet, hi, rfl, rfl, rfl, hr⟩
    have hs : SameState f (init c g) (init c' g) := by
      refine ⟨rfl, rfl, ⟨hf.empty.symm, rfl, same_nil, ?_⟩, (ren_default hf).symm, ?_, (init_label hf cs).symm, (ren_default hf).symm, rfl, rfl, rfl⟩
      · change LevelEst.Barometer.init = renB f LevelEst.Barometer.init
        unfold LevelEst.Barometer.init renB
        dsimp only
        rw [hf.empty]
      · change Estim.outdoorInit = renO f Estim.outdoorInit
        unfold Estim.outdoorInit renO
        dsimp only
        rw [ren_default hf]
    have := all_label hf hc hs calls
    change Answers f (navigateAll c (init c g) calls) (navigateAll c' (init c' g) calls)
    revert this
    generalize navigateAll c _ calls = r
    generalize navigateAll c' _ calls = r'
    intro this
    cases r <;> cases r' <;> first | exact this.elim | skip
    · rename_i a b
      refine ⟨fun s outs e => ?_, fun e => (by cases e), fun e => (by cases e)⟩
      cases e
      exact ⟨b.1, by rw [← this.2]⟩
    · exact ⟨fun s outs e => (by cases e), fun _ => rfl, fun e => (by cases e)⟩
    · exact ⟨fun s outs e => (by cases e), fun e => (by cases e), fun _ => rfl⟩

/-- **C153.** Renamed maps come from renamed floor plans: adding them is refused for both with the same error or gives such maps again. -/
theorem C153_plan (hf : Renaming f) (bg : BoostGeometry) {c c' : LevelCollector} (h : SameMap f c c') (g : GeoLevel) :
    (∃ e, addGeoLevel bg c g = .error e ∧ addGeoLevel bg c' (relabelPlan f g) = .error e) ∨
      ∃ d d', addGeoLevel bg c g = .ok d ∧ addGeoLevel bg c' (relabelPlan f g) = .ok d' ∧ SameMap f d d' := by
  have hb : getBinding (relabelPlan f g) = getBinding g := rfl
  have hgr : (relabelPlan f g).graph = g.graph := rfl
  unfold addGeoLevel
  dsimp only
  rw [hb, hgr]
  cases NavGraph.convertGraph (fun p => Geo.gpsToLocal p (getBinding g)) g.graph with
  | error e => exact .inl ⟨e, rfl, rfl⟩
  | ok graph => exact .inr ⟨_, _, rfl, rfl, add_label hf h _⟩

/-- **C153.** Before the first floor plan there is nothing to rename. -/
theorem C153_start : SameMap f emptyCollector emptyCollector := ⟨rfl, fun _ => rfl⟩

/-- Two names are swapped. -/
def swap (a b x : String) : String := if x = a then b else if x = b then a else x

theorem swap_renaming {a b : String} (ha : a ≠ "") (hb : b ≠ "") : Renaming (swap a b) := by
  refine ⟨fun x y h => ?_, ?_⟩
  · unfold swap at h
    split_ifs at h <;> simp_all
  · unfold swap
    rw [if_neg (Ne.symm ha), if_neg (Ne.symm hb)]

/-- **C153, an example.** The floor "A" of the hall of C134 is called "ground floor" in another project: the client of that project answers
the same place, on the ground floor. -/
theorem C153_example (g : Garbage) (k : Int) (hk : 0 ≤ k) (hk' : k < 5000) :
    ∃ c, mkCfg exEnv (collect [{ Project.hall with id := "ground floor" }]) plainSettings [("ground floor", ⟨-59, 10⟩)] = some c ∧
      ∃ s outs o, navigateAll c (init c g) [[exRadio 1000, exRadio 3000], [exAccel (3000 + k)]] = .ok (s, outs ++ [o]) ∧
        o.1.status = .OK ∧ o.1.posLevel = "ground floor" ∧
          (⟨o.1.posLatitude, o.1.posLongitude⟩ : GeoPoint) = Geo.localToGps ⟨3, 4⟩ ⟨0, 0⟩ := by
  have hf : Renaming (swap "A" "ground floor") := swap_renaming (by decide) (by decide)
  have hA : swap "A" "ground floor" "A" = "ground floor" := rfl
  have hone : ∀ {ν : Type} (v : ν), SameEntries (swap "A" "ground floor") [("A", v)] [("ground floor", v)] := by
    intro ν v q
    simp only [StdMap.find?]
    by_cases hq : "A" = q
    · rw [if_pos hq, ← hq, hA, if_pos rfl]
    · rw [if_neg hq, if_neg (fun e => hq (hf.injective (hA.trans e)))]
  have hmap : SameMap (swap "A" "ground floor") (collect [Project.hall]) (collect [{ Project.hall with id := "ground floor" }]) := by
    refine ⟨?_, ?_⟩
    · rw [collect_levels, collect_levels]
      rfl
    · exact hone 0
  obtain ⟨c, h1, h2⟩ := C153_labels hf (env := exEnv) (fun _ _ _ => rfl) Project.hall_built hmap (hone _)
  obtain ⟨s, outs, o, h3, h4, -, h5, h7⟩ := Project.hall_answer g k hk hk'
  obtain ⟨s', h6⟩ := (h2 g [[exRadio 1000, exRadio 3000], [exAccel (3000 + k)]]).1 _ _ h3
  refine ⟨c, h1, s', outs.map (relabelOut (swap "A" "ground floor")), relabelOut (swap "A" "ground floor") o, ?_, h4, ?_, h5⟩
  · rw [h6, List.map_append]
    rfl
  · change swap "A" "ground floor" o.1.posLevel = "ground floor"
    rw [h7, hA]

end Verif.Label
