import Verif.Tag.Places
import Verif.Knn.RefClientExample

/-!
# Property theorems for C155: the names of the transmitters are labels
-/

namespace Verif.Tag

open Verif.Levels Verif.Nav
open Verif.Geo (XYPoint GeoPoint)
open Verif.Knn (Result)
open Verif.Label (Alike alike_then alike_throw alike_undefined alike_same)

variable {f : String → String}

/-! ## Lemmas -/

/-- The detector of the level. -/
def tagDetector (f : String → String) : LevelDetector → LevelDetector
  | .radiomap b maps => .radiomap b (vals (List.map (tagPrint f)) maps)
  | .transmitters b => .transmitters b

/-- The estimator of the place. -/
def tagIndoor (f : String → String) : Indoor → Indoor
  | .knn k => .knn (tagKnn f k)
  | .zone A B => .zone A B

/-- The client of the renamed map. -/
noncomputable def tagCfg (f : String → String) (c : Cfg) : Cfg :=
  { c with
    levels := tagMap f c.levels
    detector := tagDetector f c.detector
    indoor := tagIndoor f c.indoor
    pre := Radio.mkCfg (tagMap f c.levels) c.cs }

/-- Its state. -/
def tagState (f : String → String) (s : State) : State := { s with pre := tagPre f s.pre }

/-- What is known in the middle of a step. -/
def tagSensed (f : String → String) (x : Sensed) : Sensed := { x with pre := tagPre f x.pre, radio := x.radio.map (tag f) }

/-- What is known after the place was found. -/
def tagLocated (f : String → String) (l : Located) : Located := { l with state := tagState f l.state }

theorem outdoorLevels_tag (cs : CommonSettings) (st : Estim.OutdoorState) (g : Estim.GpsPosition) (n : Int) (ls : List Level) :
    Estim.outdoorLevels cs st g n (ls.map (tagLevel f)) = Estim.outdoorLevels cs st g n ls := by
  induction ls with
  | nil => rfl
  | cons l ls ih =>
    rw [List.map_cons]
    unfold Estim.outdoorLevels
    rw [ih]
    rfl

theorem outdoor_tag (cs : CommonSettings) (c : LevelCollector) (st : Estim.OutdoorState) (ts : Int) (m : SensorMeasurement)
    (n : NmeaMeasurement) (b : Bool) : Estim.outdoorPosition cs (tagMap f c) st ts m n b = Estim.outdoorPosition cs c st ts m n b := by
  unfold Estim.outdoorPosition
  have h : (tagMap f c).levels = c.levels.map (tagLevel f) := rfl
  rw [h]
  simp only [outdoorLevels_tag]

section
variable (hf : StrictMono f) {c : Cfg} (hs : Compares f c.env) (hr : East.ReadsGeometry c.env) (hpre : c.pre = Radio.mkCfg c.levels c.cs)
include hf

theorem detect_tag (radio : List RadioData) : detectLevel (tagCfg f c) (radio.map (tag f)) = detectLevel c radio := by
  unfold detectLevel
  change (match tagDetector f c.detector with | .radiomap b maps => _ | .transmitters b => _) = _
  cases c.detector with
  | radiomap b maps => exact radiomap_tag hf b maps c.levels radio
  | transmitters b => exact transmitters_tag hf b c.levels radio

include hs hpre in
theorem sense_tag (s : State) (m : Measurement) :
    Alike (fun x x' => x' = tagSensed f x) (sense c s m) (sense (tagCfg f c) (tagState f s) (tagMessage f m)) := by
  unfold sense
  dsimp only
  have e1 : Radio.updateMeasurements (tagCfg f c).pre (tagState f s).pre (tagMessage f m) = tagPre f (Radio.updateMeasurements c.pre s.pre m) := by
    rw [hpre]
    exact update_tag hf c.levels c.cs s.pre m
  have e2 : ∀ pre t, Radio.extractRadioMeasurements (tagCfg f c).env.radioSorts (tagCfg f c).pre (tagPre f pre) t =
      ((Radio.extractRadioMeasurements c.env.radioSorts c.pre pre t).1.map (List.map (tag f)),
        tagPre f (Radio.extractRadioMeasurements c.env.radioSorts c.pre pre t).2) := by
    intro pre t
    rw [hpre]
    exact extract_tag hf hs c.levels c.cs pre t
  rw [e1]
  generalize Radio.updateMeasurements c.pre s.pre m = pre
  refine alike_then (alike_same _) ?_
  rintro _ q rfl
  change Alike _ _ (andThen (orThrow (Radio.extractRadioMeasurements (tagCfg f c).env.radioSorts (tagCfg f c).pre (tagPre f pre) q.2.lastMotionTs).1) _)
  rw [e2]
  refine alike_then (alike_throw (R := fun r r' => r' = r.map (tag f)) (fun _ => rfl)) ?_
  rintro radio _ rfl
  rw [detect_tag hf]
  refine alike_then (alike_same _) ?_
  rintro d _ rfl
  have e3 : Estim.outdoorPosition (tagCfg f c).cs (tagCfg f c).levels (tagState f s).outdoor (tagPre f pre).currentTs (tagPre f pre).sensor
      (tagPre f pre).nmea (tagState f s).flagIndoorPos = Estim.outdoorPosition c.cs c.levels s.outdoor pre.currentTs pre.sensor pre.nmea
        s.flagIndoorPos := outdoor_tag _ _ _ _ _ _ _
  rw [e3]
  refine alike_then (alike_same _) ?_
  rintro o _ rfl
  rfl

theorem indoor_tag (p : Position) (l : Level) (ts : Int) (radio : List RadioData) :
    indoorPosition (tagCfg f c) p (tagLevel f l) ts (radio.map (tag f)) = indoorPosition c p l ts radio := by
  unfold indoorPosition
  change (match tagIndoor f c.indoor with | .knn k => _ | .zone A B => _) = _
  cases c.indoor with
  | knn k =>
    change andThen (Knn.calculatePosition (tagKnn f k) p (tagLevel f l) ts (radio.map (tag f))) _ = _
    rw [knn_tag hf]
  | zone A B =>
    change Result.ok ((Estim.zonePosition A B (tagLevel f l) ts (radio.map (tag f))).1, (Estim.zonePosition A B (tagLevel f l) ts (radio.map (tag f))).2, p) = _
    rw [zone_tag hf]

include hr in
theorem locate_tag (s : State) (x : Sensed) :
    Alike (fun l l' => l' = tagLocated f l) (locate c s x) (locate (tagCfg f c) (tagState f s) (tagSensed f x)) := by
  have ht : timedOutLevel (tagCfg f c) (tagSensed f x) = timedOutLevel c x := rfl
  unfold locate
  dsimp only
  rw [ht]
  change Alike _ _ (if hasLevel c.levels (timedOutLevel c x) = true then andThen (orThrow (level (tagMap f c.levels) (timedOutLevel c x))) _
    else if x.outdoorPos.isEmpty = false then _ else _)
  rw [level_tag]
  by_cases hl : hasLevel c.levels (timedOutLevel c x) = true
  · rw [if_pos hl, if_pos hl]
    refine alike_then (alike_throw (R := fun l l' => l' = tagLevel f l) (fun _ => rfl)) ?_
    rintro l _ rfl
    have ha : (tagCfg f c).env.allowed (tagLevel f l) = c.env.allowed l := hr _ _ rfl
    unfold locateIndoor
    rw [ha]
    change Alike _ _ (andThen (indoorPosition (tagCfg f c) s.indoorPos (tagLevel f l) x.pre.currentTs (x.radio.map (tag f))) _)
    rw [indoor_tag hf]
    refine alike_then (alike_same _) ?_
    rintro i _ rfl
    refine alike_then (alike_same _) ?_
    rintro h _ rfl
    refine alike_then (alike_same _) ?_
    rintro p _ rfl
    rfl
  · rw [if_neg hl, if_neg hl]
    by_cases ho : x.outdoorPos.isEmpty = false
    · rw [if_pos ho, if_pos ho]
      rfl
    · rw [if_neg ho, if_neg ho]
      rfl

include hs in
theorem report_tag (x : Sensed) (l : Located) : report (tagCfg f c) (tagSensed f x) (tagLocated f l) = report c x l := by
  have ha : ∀ lv, altitudeOf (tagCfg f c) (tagLevel f lv) (x.radio.map (tag f)) = altitudeOf c lv x.radio := by
    intro lv
    unfold altitudeOf
    change (if c.cs.useAltitude = true then andThen (orThrow (Trilat.calculateAltitude c.env.distanceSort c.env.solve (tagLevel f lv) _)) _ else _) = _
    rw [altitude_tag hf hs.distance]
  unfold report
  dsimp only
  change (if l.state.position.isEmpty = true then _ else if l.state.position.levelId ≠ "" then
    andThen (orThrow (level (tagMap f c.levels) l.state.position.levelId)) (fun lv => andThen (altitudeOf (tagCfg f c) lv (x.radio.map (tag f))) _) else _) = _
  rw [level_tag]
  cases level c.levels l.state.position.levelId with
  | none => rfl
  | some lv =>
    simp only [Option.map_some, orThrow, andThen]
    rw [ha]
    rfl

include hs hr hpre in
theorem step_tag (s : State) (m : Measurement) :
    Alike (fun r r' => r' = (tagState f r.1, r.2)) (step c s m) (step (tagCfg f c) (tagState f s) (tagMessage f m)) := by
  unfold step
  refine alike_then (sense_tag hf hs hpre s m) ?_
  rintro x _ rfl
  refine alike_then (locate_tag hf hr s x) ?_
  rintro l _ rfl
  rw [report_tag hf hs]
  refine alike_then (alike_same _) ?_
  rintro o _ rfl
  rfl

include hs hr hpre in
theorem loop_client_tag (s : State) (t : Int) (ms : List Measurement) :
    Alike (fun r r' => r' = (tagState f r.1, r.2)) (loop c s t ms) (loop (tagCfg f c) (tagState f s) t (ms.map (tagMessage f))) := by
  induction ms generalizing s t with
  | nil => exact rfl
  | cons m ms ih =>
    rw [List.map_cons]
    unfold loop
    have ht : (tagMessage f m).ts = m.ts := rfl
    rw [ht]
    by_cases h : t > m.ts
    · rw [if_pos h, if_pos h]
      exact ih s t
    · rw [if_neg h, if_neg h]
      refine alike_then (step_tag hf hs hr hpre s m) ?_
      rintro r _ rfl
      refine alike_then (ih r.1 m.ts) ?_
      rintro q _ rfl
      rfl

include hs hr hpre in
theorem all_tag (s : State) (calls : List (List Measurement)) :
    Alike (fun r r' => r' = (tagState f r.1, r.2)) (navigateAll c s calls)
      (navigateAll (tagCfg f c) (tagState f s) (calls.map (List.map (tagMessage f)))) := by
  induction calls generalizing s with
  | nil => exact rfl
  | cons b bs ih =>
    rw [List.map_cons]
    unfold navigateAll
    have h1 : Alike (fun r r' => r' = (tagState f r.1, r.2)) (navigate c s b) (navigate (tagCfg f c) (tagState f s) (b.map (tagMessage f))) := by
      cases b with
      | nil => exact rfl
      | cons m ms => exact loop_client_tag hf hs hr hpre s m.ts (m :: ms)
    refine alike_then h1 ?_
    rintro r _ rfl
    refine alike_then (ih r.1) ?_
    rintro q _ rfl
    rfl

end

/-! ## Property theorems -/

/-- **C155.** A client is made for a map, and another one with the same settings for the same map with other names of the transmitters, in
the same order. The second client can be made if the first can, and when it is given the messages with the new names it gives the same
answers, or fails in the same way. All settings are allowed. -/
theorem C155_labels (hf : StrictMono f) {env : Env} (hs : Compares f env) (hr : East.ReadsGeometry env) {col : LevelCollector}
    {cs : CommonSettings} {sets : List (String × Estim.LevelSettings)} {c : Cfg} (hb : mkCfg env col cs sets = some c) :
    ∃ c', mkCfg env (tagMap f col) cs sets = some c' ∧ ∀ (g : Garbage) (calls : List (List Measurement)),
      SameAnswers (navigateAll c (init c g) calls) (navigateAll c' (init c' g) (calls.map (List.map (tagMessage f)))) := by
  have hdet : createLevelEstimator (tagMap f col) cs = tagDetector f (createLevelEstimator col cs) := by
    unfold createLevelEstimator
    rw [radiomaps_tag]
    split_ifs <;> rfl
  have hpos : createPositionEstimator env (tagMap f col) cs sets = (createPositionEstimator env col cs sets).map (tagIndoor f) := by
    unfold createPositionEstimator
    rw [mkKnn_tag hf, params_tag]
    split_ifs
    · rfl
    · cases Estim.zoneParams sets col <;> rfl
  have h1 : ∃ c', mkCfg env (tagMap f col) cs sets = some c' ∧ c' = tagCfg f c ∧ c.env = env ∧ c.pre = Radio.mkCfg c.levels c.cs := by
    unfold mkCfg at hb ⊢
    rw [hpos, hdet]
    cases hi : createPositionEstimator env col cs sets with
    | none => rw [hi] at hb; cases hb
    | some i =>
      rw [hi] at hb
      simp only [Option.map_some, Option.some.injEq] at hb ⊢
      subst hb
      exact ⟨_, rfl, rfl, rfl, rfl⟩
  obtain ⟨c', h2, rfl, h3, h4⟩ := h1
  refine ⟨_, h2, fun g calls => ?_⟩
  have := all_tag hf (c := c) (by rw [h3]; exact hs) (by rw [h3]; exact hr) h4 (init c g) calls
  change Alike _ _ (navigateAll (tagCfg f c) (init (tagCfg f c) g) _) at this
  revert this
  generalize navigateAll c _ calls = r
  generalize navigateAll (tagCfg f c) _ _ = r'
  intro this
  cases r <;> cases r' <;> first | exact this.elim | skip
  · rename_i a b
    refine ⟨fun s outs e => ?_, fun e => (by cases e), fun e => (by cases e)⟩
    cases e
    exact ⟨tagState f s, by rw [this]⟩
  · exact ⟨fun s outs e => (by cases e), fun _ => rfl, fun e => (by cases e)⟩
  · exact ⟨fun s outs e => (by cases e), fun e => (by cases e), fun _ => rfl⟩

/-- **C155.** Renamed maps come from renamed floor plans: adding them is refused for both with the same error or gives such maps again. -/
theorem C155_plan (hf : StrictMono f) (bg : BoostGeometry) (c : LevelCollector) (g : GeoLevel) :
    addGeoLevel bg (tagMap f c) (tagPlan f g) = (addGeoLevel bg c g).map (tagMap f) := by
  have htx : ∀ (txs : List (Transmitter XYZPoint)) (m : List (String × Transmitter XYZPoint)),
      (txs.map (tagTransmitter f)).foldl (fun m tx => StdMap.insert m tx.id tx) (both f (tagTransmitter f) m) =
        both f (tagTransmitter f) (txs.foldl (fun m tx => StdMap.insert m tx.id tx) m) := by
    intro txs
    induction txs with
    | nil => intro m; rfl
    | cons t txs ih =>
      intro m
      rw [List.map_cons, List.foldl_cons, List.foldl_cons, ← ih]
      congr 1
      exact insert_both hf (tagTransmitter f) m t.id t
  have hidx : ∀ (rps : List (ReferencePoint XYPoint)) (n : ℕ) (m : List (String × ℕ)),
      buildIndex n m (rps.map (tagPoint f)) = buildIndex n m rps := by
    intro rps
    induction rps with
    | nil => intros; rfl
    | cons rp rps ih =>
      intro n m
      rw [List.map_cons]
      unfold buildIndex
      exact ih _ _
  unfold addGeoLevel
  dsimp only
  change (match NavGraph.convertGraph (fun p => Geo.gpsToLocal p (getBinding g)) g.graph with | .error e => _ | .ok graph => _) = _
  cases NavGraph.convertGraph (fun p => Geo.gpsToLocal p (getBinding g)) g.graph with
  | error e => rfl
  | ok graph =>
    have h1 : localTransmitters (getBinding g) (tagPlan f g).transmitters g.altitude =
        (localTransmitters (getBinding g) g.transmitters g.altitude).map (tagTransmitter f) := by
      unfold localTransmitters tagPlan
      rw [List.map_map, List.map_map]
      rfl
    have h2 : mkRadiomap (localRefPoints (getBinding g) (tagPlan f g).referencePoints) =
        ⟨(localRefPoints (getBinding g) g.referencePoints).map (tagPoint f), buildIndex 0 [] (localRefPoints (getBinding g) g.referencePoints)⟩ := by
      have : localRefPoints (getBinding g) (tagPlan f g).referencePoints = (localRefPoints (getBinding g) g.referencePoints).map (tagPoint f) := by
        unfold localRefPoints tagPlan
        rw [List.map_map, List.map_map]
        rfl
      unfold mkRadiomap
      rw [this, hidx]
    change Except.ok (addLevel (tagMap f c) (Level.addTransmitters ⟨g.id, getBinding g, [],
      mkRadiomap (localRefPoints (getBinding g) (tagPlan f g).referencePoints), localGeometry bg (getBinding g) g.geometry, graph⟩
      (localTransmitters (getBinding g) (tagPlan f g).transmitters g.altitude))) = _
    rw [h1, h2]
    unfold Level.addTransmitters
    dsimp only
    have := htx (localTransmitters (getBinding g) g.transmitters g.altitude) []
    change List.foldl _ [] _ = _ at this
    rw [this]
    simp only [Except.map, Except.ok.injEq]
    unfold addLevel tagMap
    simp only [List.map_append, List.map_cons, List.map_nil, List.length_append, List.length_map]
    rfl

/-- **C155.** Before the first floor plan there is nothing to rename. -/
theorem C155_start : tagMap f emptyCollector = emptyCollector := rfl

/-- **C155.** The condition on the sorting functions holds for sorting by insertion, with any new names in the same order. -/
theorem C155_sorts (hf : StrictMono f) (env : Env) (h1 : env.radioSorts = Radio.insertionSorts)
    (h2 : env.distanceSort = List.insertionSort (fun a b => a.distance ≤ b.distance)) : Compares f env := by
  refine ⟨fun l => ?_, fun l => ?_, fun l => ?_, fun l => ?_⟩
  · rw [h1]
    exact (List.map_insertionSort _ _ (tagSignal f) l (fun a _ b _ => hf.le_iff_le.symm)).symm
  · rw [h1]
    exact (List.map_insertionSort _ _ (tagSignal f) l (fun a _ b _ => Iff.rfl)).symm
  · rw [h1]
    exact (List.map_insertionSort _ _ (tag f) l (fun a _ b _ => Iff.rfl)).symm
  · rw [h2]
    exact (List.map_insertionSort _ _ (tag f) l (fun a _ b _ => Iff.rfl)).symm

/-- Every name gets a prefix. -/
def site (x : String) : String := "site7/" ++ x

theorem site_mono : StrictMono site := by
  intro a b h
  rw [String.lt_iff_toList_lt] at h ⊢
  unfold site
  rw [String.toList_append, String.toList_append]
  generalize ("site7/").toList = p
  induction p with
  | nil => exact h
  | cons x p ih => exact List.cons_lt_cons_self.mpr ih

open RefOrder Floors in
/-- **C155, an example.** The transmitters of the client of C154 get a prefix; their order stays. The client of the renamed map, given the
renamed messages, answers with a place, the same as the client of the map. -/
theorem C155_example (g : Garbage) :
    ∃ c', mkCfg printEnv (tagMap site (collect [Knn.RefOrder.lvl])) triSettings [] = some c' ∧
      ∃ s outs o s', navigateAll triCfg (init triCfg g) [signals, [exAccel 3000]] = .ok (s, outs ++ [o]) ∧ o.1.status = .OK ∧
        navigateAll c' (init c' g) [[⟨.radio ⟨.BEACON, "site7/t1", -70, 0, 0, 0⟩, 1000⟩, ⟨.radio ⟨.BEACON, "site7/t2", -70, 0, 0, 0⟩, 1500⟩,
          ⟨.radio ⟨.BEACON, "site7/t3", -70, 0, 0, 0⟩, 3000⟩], [exAccel 3000]] = .ok (s', outs ++ [o]) := by
  obtain ⟨c', h1, h2⟩ := C155_labels site_mono (env := printEnv) (C155_sorts site_mono printEnv rfl rfl) (fun _ _ _ => rfl) tri_built
  obtain ⟨-, -, s, outs, s', out, dbg, h3, h4, h5, -⟩ := C154_client_example g
  have h6 : navigateAll triCfg (init triCfg g) [signals, [exAccel 3000]] = .ok (s', outs ++ [(out, dbg)]) := by
    have e : navigate triCfg (init triCfg g) signals = .ok (s, outs) := by
      rw [navigateAll_eq] at h3
      have : taken [signals] = records signals := by simp [taken]
      rw [this] at h3
      rw [navigate_eq]
      exact h3
    unfold navigateAll
    rw [e]
    change andThen (navigateAll triCfg s [[exAccel 3000]]) _ = _
    unfold navigateAll
    rw [h4]
    rfl
  obtain ⟨s2, h7⟩ := (h2 g [signals, [exAccel 3000]]).1 _ _ h6
  exact ⟨c', h1, s', outs, (out, dbg), s2, h6, h5, h7⟩

/-! ## Why the order has to stay -/

/-- A room with two beacons. -/
noncomputable def room (p q : XYZPoint) : Level :=
  { bareLevel "A" [⟨"t1", p, ⟨-59, 10, 0⟩, .BEACON⟩, ⟨"t2", q, ⟨-59, 10, 0⟩, .BEACON⟩] with geometry := ⟨[], ⟨⟨0, 0⟩, ⟨10, 10⟩⟩, []⟩ }

/-- Its client. -/
noncomputable def roomCfg (p q : XYZPoint) : Cfg where
  env := exEnv
  cs := plainSettings
  levels := collect [room p q]
  noSignal := 35000
  noAction := plainCfg.noAction
  detector := .transmitters plainSettings.useTxPower
  indoor := .zone [("A", -59)] [("A", 10)]
  pre := Radio.mkCfg (collect [room p q]) plainSettings
  fusion := Fusion.fusionConfig plainSettings

theorem room_id (p q : XYZPoint) : (room p q).id = "A" := rfl

theorem room_built (p q : XYZPoint) : mkCfg exEnv (collect [room p q]) plainSettings [("A", ⟨-59, 10⟩)] = some (roomCfg p q) := by
  have hz : Estim.zoneParams [("A", ⟨-59, 10⟩)] (collect [room p q]) = some ([("A", -59)], [("A", 10)]) := by
    simp [Estim.zoneParams, collect_levels, room_id, List.foldlM, StdMap.find?, StdMap.set, StdMap.insertSorted]
  unfold mkCfg createPositionEstimator
  rw [if_neg (by simp [plainSettings]), hz]
  simp [roomCfg, plainSettings, createLevelEstimator, plainCfg]

theorem roomClient (p q : XYZPoint) : Client [room p q] (roomCfg p q) where
  map := by
    refine ⟨by simp, ?_, ?_, ?_⟩ <;> intro l hl <;> rw [List.mem_singleton] at hl <;> rw [hl]
    · simp [room_id]
    · rfl
    · exact ⟨[], rfl⟩
  settings := ⟨fun h => (by cases h), fun h => (by cases h)⟩
  sort := sortsBy_insertionSort _
  radioSorts := Radio.insertionSorts_lawful
  built := ⟨_, room_built p q⟩

theorem room_table (p q : XYZPoint) : (room p q).transmitters =
    [("t1", ⟨"t1", p, ⟨-59, 10, 0⟩, .BEACON⟩), ("t2", ⟨"t2", q, ⟨-59, 10, 0⟩, .BEACON⟩)] := by
  have h : ¬ ("t2" : String) < "t1" := by rw [String.lt_iff_toList_lt]; decide
  simp [room, bareLevel, Level.addTransmitters, StdMap.insert, StdMap.insertSorted, StdMap.find?, h]

open Floors in
theorem room_heard (p q : XYZPoint) {id : String} (h : id = "t1" ∨ id = "t2") :
    Radio.Admissible [room p q] (roomCfg p q).cs ⟨.BEACON, id, -70, 0, 0, 0⟩ := by
  refine ⟨?_, ?_, ?_, .inr ?_⟩
  · simp [Radio.TypeEnabled, roomCfg, plainSettings]
  · intro _; simp [roomCfg, plainSettings]; norm_num
  · intro h; exact absurd rfl h
  · rcases h with rfl | rfl
    · exact ⟨⟨"t1", p, ⟨-59, 10, 0⟩, .BEACON⟩, ⟨room p q, (by simp [Level.containsTransmitter, room_table, StdMap.find?]), by rw [room_table]; simp, (by unfold Level.transmitter; rw [room_table]; simp [StdMap.find?])⟩, by simp [roomCfg, plainSettings]⟩
    · exact ⟨⟨"t2", q, ⟨-59, 10, 0⟩, .BEACON⟩, ⟨room p q, (by simp [Level.containsTransmitter, room_table, StdMap.find?]), by rw [room_table]; simp, (by unfold Level.transmitter; rw [room_table]; simp [StdMap.find?])⟩, by simp [roomCfg, plainSettings]⟩

open Floors in
/-- Both beacons are heard equally well: the one whose name comes first is answered. -/
theorem room_answer (p q : XYZPoint) (hp : 0 < p.x ∧ p.x < 10 ∧ 0 < p.y ∧ p.y < 10) (a b : String)
    (hab : (a = "t1" ∧ b = "t2") ∨ (a = "t2" ∧ b = "t1")) (g : Garbage) :
    ∃ s outs s' out dbg, navigateAll (roomCfg p q) (init (roomCfg p q) g) [[sig a 1000, sig b 3000]] = .ok (s, outs) ∧
      navigate (roomCfg p q) s [exAccel 3000] = .ok (s', [(out, dbg)]) ∧ out.status = .OK ∧ dbg.indoorPosition = ⟨p.x, p.y⟩ := by
  obtain ⟨s, outs, h1, -⟩ := C79_total (roomClient p q) g [[sig a 1000, sig b 3000]]
  have ha : a = "t1" ∨ a = "t2" := by rcases hab with h | h <;> simp [h.1]
  have hb : b = "t1" ∨ b = "t2" := by rcases hab with h | h <;> simp [h.2]
  have hrec : records [sig a 1000, sig b 3000] = [sig a 1000, sig b 3000] := records_ordered _ (by simp [Ordered, sig])
  have htk : taken [[sig a 1000, sig b 3000]] = [sig a 1000, sig b 3000] := by simp [taken, hrec]
  have hna : ∀ t, ¬ Heard [room p q] (roomCfg p q).cs (exAccel t) := by rintro t ⟨d, hd, -⟩; cases hd
  have hspan : spanOf (roomCfg p q).cs = 1000 := by simp [spanOf, roomCfg, plainSettings]
  have hdead : ⌊1000 * (roomCfg p q).cs.deadReckoningTime⌋ = 5000 := by
    have : (1000 : ℝ) * (roomCfg p q).cs.deadReckoningTime = ((5000 : Int) : ℝ) := by
      simp [roomCfg, plainSettings]; norm_num
    rw [this, Int.floor_intCast]
  have hw : windows [room p q] (roomCfg p q).cs (taken [[sig a 1000, sig b 3000]] ++ [exAccel 3000]) =
      ⟨some 3000, [], some (3000, [heardSig a 1000, heardSig b 3000])⟩ := by
    rw [htk, windows_snoc, take_not_heard _ (hna _)]
    rw [show [sig a 1000, sig b 3000] = ([] ++ [sig a 1000]) ++ [sig b 3000] from rfl, windows_snoc, windows_snoc]
    unfold sig
    rw [take_heard _ (room_heard p q ha), take_heard _ (room_heard p q hb), hspan]
    simp [Windows.hear, windows, heardSig]
  obtain ⟨s', out, dbg, w, t, h2, h3, h4, h6, h5, -⟩ := C94_zone (roomClient p q) plain_settings g [[sig a 1000, sig b 3000]] h1
    (exAccel 3000)
    (by
      rw [htk]
      intro e he
      simp only [List.mem_append, List.mem_cons, List.not_mem_nil, or_false] at he
      rcases he with (rfl | rfl) | rfl <;> simp [sig, exAccel])
    ⟨[sig a 1000], sig b 3000, [exAccel 3000], by rw [htk]; rfl, ⟨_, rfl, room_heard p q hb⟩,
      (by intro e he; rw [List.mem_singleton] at he; rw [he]; exact hna _),
      (by change (3000 : Int) < 3000 + 1000 * 35; omega)⟩ (by rw [hw])
  have hne : ("t1" : String) ≠ "t2" := by decide
  have hmean : ∀ id, id = "t1" ∨ id = "t2" → meanRssi [heardSig a 1000, heardSig b 3000] id = -70 := by
    intro id hid
    rcases hab with ⟨rfl, rfl⟩ | ⟨rfl, rfl⟩ <;> rcases hid with rfl | rfl <;>
      simp [meanRssi, Radio.ofTransmitter, heardSig, Radio.mean]
  have hst : Strongest [heardSig a 1000, heardSig b 3000] "t1" := by
    have hle : ("t1" : String) ≤ "t2" := le_of_lt (by rw [String.lt_iff_toList_lt]; decide)
    refine ⟨?_, ?_⟩
    · rcases hab with ⟨rfl, rfl⟩ | ⟨rfl, rfl⟩
      · exact ⟨heardSig "t1" 1000, by simp, rfl⟩
      · exact ⟨heardSig "t1" 3000, by simp, rfl⟩
    · intro m hm
      have hid : m.data.id = "t1" ∨ m.data.id = "t2" := by
        simp only [List.mem_cons, List.not_mem_nil, or_false] at hm
        rcases hm with rfl | rfl
        · exact ha
        · exact hb
      refine .inr ⟨by rw [hmean _ hid, hmean _ (.inl rfl)], ?_⟩
      rcases hid with h | h <;> rw [h]
      exact hle
  have hb' : w = "t1" := C94_strongest_unique h3 hst
  subst hb'
  have ht : t = ⟨"t1", p, ⟨-59, 10, 0⟩, .BEACON⟩ := by
    unfold Level.transmitter at h4
    rw [room_table] at h4
    simp only [StdMap.find?, if_true, Option.some.injEq] at h4
    exact h4.symm
  subst ht
  have hbox : Estim.Box.Covers (room p q).geometry.boundingBox ⟨p.x, p.y⟩ := by
    obtain ⟨b1, b2, b3, b4⟩ := hp
    simp only [Estim.Box.Covers, room]
    refine ⟨?_, ?_, ?_, ?_⟩ <;> linarith
  have hage : (exAccel 3000).ts - 3000 = 0 := by simp [exAccel]
  rw [hage, hdead] at h5
  exact ⟨s, outs, s', out, dbg, h1, h2, (h5 ⟨hbox, by norm_num⟩).1, h6⟩

open Floors in
/-- **C155: the order has to stay.** In a room two beacons are heard equally well. Exchange their names, on the map and in the messages:
the client answers another place. -/
theorem C155_order_matters (g : Garbage) :
    ∃ s outs s' out dbg, navigateAll (roomCfg ⟨3, 4, 0⟩ ⟨7, 8, 0⟩) (init (roomCfg ⟨3, 4, 0⟩ ⟨7, 8, 0⟩) g) [[sig "t1" 1000, sig "t2" 3000]] = .ok (s, outs) ∧
      navigate (roomCfg ⟨3, 4, 0⟩ ⟨7, 8, 0⟩) s [exAccel 3000] = .ok (s', [(out, dbg)]) ∧ out.status = .OK ∧ dbg.indoorPosition = ⟨3, 4⟩ ∧
    ∃ u outs' u' out' dbg', navigateAll (roomCfg ⟨7, 8, 0⟩ ⟨3, 4, 0⟩) (init (roomCfg ⟨7, 8, 0⟩ ⟨3, 4, 0⟩) g) [[sig "t2" 1000, sig "t1" 3000]] = .ok (u, outs') ∧
      navigate (roomCfg ⟨7, 8, 0⟩ ⟨3, 4, 0⟩) u [exAccel 3000] = .ok (u', [(out', dbg')]) ∧ out'.status = .OK ∧ dbg'.indoorPosition = ⟨7, 8⟩ := by
  obtain ⟨s, outs, s', out, dbg, h1, h2, h3, h4⟩ := room_answer ⟨3, 4, 0⟩ ⟨7, 8, 0⟩ (by norm_num) "t1" "t2" (.inl ⟨rfl, rfl⟩) g
  obtain ⟨u, outs', u', out', dbg', k1, k2, k3, k4⟩ := room_answer ⟨7, 8, 0⟩ ⟨3, 4, 0⟩ (by norm_num) "t2" "t1" (.inr ⟨rfl, rfl⟩) g
  exact ⟨s, outs, s', out, dbg, h1, h2, h3, h4, u, outs', u', out', dbg', k1, k2, k3, k4⟩

end Verif.Tag
