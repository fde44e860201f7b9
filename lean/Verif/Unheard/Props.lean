import Verif.Unheard.Lemmas
import Verif.Project.Example

/-!
# Property theorems for C152: transmitters that are not heard
-/

namespace Verif.Unheard

open Verif.Levels Verif.Nav
open Verif.Geo (XYPoint GeoPoint)
open Verif.Knn (Result)

/-- A client of the other map. -/
structure SameClient (K : String → Prop) (c c' : Cfg) : Prop where
  env : c'.env = c.env
  cs : c'.cs = c.cs
  levels : SameMap K c.levels c'.levels
  noSignal : c'.noSignal = c.noSignal
  noAction : c'.noAction = c.noAction
  detector : c'.detector = c.detector
  indoor : c'.indoor = c.indoor
  pre : c.pre = Radio.mkCfg c.levels c.cs
  pre' : c'.pre = Radio.mkCfg c'.levels c.cs
  fusion : c'.fusion = c.fusion
  sort : SortsBy (fun a b : RadioData => a.distance < b.distance) c.env.distanceSort
  radioSorts : c.env.radioSorts.Lawful
  allowed : East.ReadsGeometry c.env

theorem andThen_same {α β : Type} {a : Result α} {f g : α → Result β} (h : ∀ x, a = .ok x → f x = g x) : andThen a f = andThen a g := by
  cases a with
  | ok x => exact h x rfl
  | throws => rfl
  | undefined => rfl

theorem andThen_ok {α β : Type} {a : Result α} {f : α → Result β} {b : β} (h : andThen a f = .ok b) : ∃ x, a = .ok x ∧ f x = .ok b := by
  cases a with
  | ok x => exact ⟨x, rfl, h⟩
  | throws => cases h
  | undefined => cases h

section
variable {K : String → Prop} {c c' : Cfg} (h : SameClient K c c')
include h

theorem detect_same {radio : List RadioData} (hr : ∀ m ∈ radio, K m.id) : detectLevel c' radio = detectLevel c radio := by
  unfold detectLevel
  rw [h.detector]
  cases c.detector with
  | radiomap b maps => exact byRadiomap_same h.levels b maps radio
  | transmitters p => exact byTransmitters_same h.levels p hr

theorem sense_same (s : State) (m : Measurement) (hs : Kept K s.pre) (hm : Known K m) :
    sense c' s m = sense c s m ∧ ∀ x, sense c s m = .ok x → Kept K x.pre ∧ ∀ e ∈ x.radio, K e.id := by
  have hu := update_kept c.pre s.pre m hs hm
  have e1 : Radio.updateMeasurements c'.pre s.pre m = Radio.updateMeasurements c.pre s.pre m := by
    rw [h.pre', h.pre, update_same h.levels c.cs s.pre m hm]
  unfold sense
  dsimp only
  rw [e1, h.fusion, h.env, h.cs]
  generalize Radio.updateMeasurements c.pre s.pre m = pre at hu ⊢
  have e2 : ∀ t, Radio.extractRadioMeasurements c.env.radioSorts c'.pre pre t = Radio.extractRadioMeasurements c.env.radioSorts c.pre pre t := by
    intro t
    rw [h.pre', h.pre, extract_same h.levels h.radioSorts c.cs pre t hu]
  have hk := fun t => extract_kept h.radioSorts c.pre pre t hu
  constructor
  · refine andThen_same (fun f _ => ?_)
    rw [e2]
    refine andThen_same (fun radio hr => ?_)
    have hr' : ∀ e ∈ radio, K e.id := by
      refine (hk f.2.lastMotionTs).2 radio ?_
      cases he : (Radio.extractRadioMeasurements c.env.radioSorts c.pre pre f.2.lastMotionTs).1 with
      | none => rw [he] at hr; cases hr
      | some r => rw [he] at hr; cases hr; rfl
    rw [detect_same h hr']
    refine andThen_same (fun det _ => ?_)
    rw [outdoor_same h.levels]
  · intro x hx
    obtain ⟨f, -, hx⟩ := andThen_ok hx
    obtain ⟨radio, hr, hx⟩ := andThen_ok hx
    obtain ⟨det, -, hx⟩ := andThen_ok hx
    obtain ⟨o, -, hx⟩ := andThen_ok hx
    have hr' : ∀ e ∈ radio, K e.id := by
      refine (hk f.2.lastMotionTs).2 radio ?_
      cases he : (Radio.extractRadioMeasurements c.env.radioSorts c.pre pre f.2.lastMotionTs).1 with
      | none => rw [he] at hr; cases hr
      | some r => rw [he] at hr; cases hr; rfl
    cases hx
    exact ⟨(hk _).1, hr'⟩

theorem locate_same (s : State) (x : Sensed) (hx : ∀ e ∈ x.radio, K e.id) : locate c' s x = locate c s x := by
  have ht : timedOutLevel c' x = timedOutLevel c x := by
    unfold timedOutLevel
    rw [h.noSignal, h.noAction]
  unfold locate
  dsimp only
  rw [ht, has_same h.levels]
  by_cases hl : hasLevel c.levels (timedOutLevel c x) = true
  · rw [if_pos hl, if_pos hl]
    rcases level_same h.levels (timedOutLevel c x) with ⟨h1, h2⟩ | ⟨l, l', h1, h2, hf⟩
    · rw [h1, h2]
      rfl
    · rw [h1, h2]
      change locateIndoor c' s x l' = locateIndoor c s x l
      have hi : indoorPosition c' s.indoorPos l' x.pre.currentTs x.radio = indoorPosition c s.indoorPos l x.pre.currentTs x.radio := by
        unfold indoorPosition
        rw [h.indoor]
        cases c.indoor with
        | knn k =>
          dsimp only
          rw [knnPosition_same hf]
        | zone A B =>
          dsimp only
          rw [zone_same hf A B _ hx]
      have ha : c'.env.allowed l' = c.env.allowed l := by
        rw [h.env]
        exact h.allowed l' l hf.geometry
      unfold locateIndoor
      rw [hi, h.cs, ha]
      refine andThen_same (fun i _ => ?_)
      dsimp only
      refine andThen_same (fun hd _ => ?_)
      rw [processed_same hf]
      refine andThen_same (fun p _ => ?_)
      unfold finalAzimuth
      rw [h.cs]
  · rw [if_neg hl, if_neg hl]

theorem report_same (x : Sensed) (l : Located) (hx : ∀ e ∈ x.radio, K e.id) : report c' x l = report c x l := by
  unfold report
  dsimp only
  split_ifs
  · rfl
  · rfl
  · rcases level_same h.levels l.state.position.levelId with ⟨h1, h2⟩ | ⟨lv, lv', h1, h2, hf⟩
    · rw [h1, h2]
      rfl
    · rw [h1, h2]
      have ha : altitudeOf c' lv' x.radio = altitudeOf c lv x.radio := by
        unfold altitudeOf
        rw [h.cs, h.env, altitude_same hf h.sort _ _ hx]
      simp only [orThrow, andThen]
      rw [ha, hf.binding]
  · rfl

omit h in
theorem locate_pre {s : State} {x : Sensed} {l : Located} (hl : locate c s x = .ok l) : l.state.pre = x.pre := by
  unfold locate at hl
  dsimp only at hl
  split_ifs at hl
  · obtain ⟨lv, -, hl⟩ := andThen_ok hl
    unfold locateIndoor at hl
    obtain ⟨i, -, hl⟩ := andThen_ok hl
    obtain ⟨hd, -, hl⟩ := andThen_ok hl
    obtain ⟨p, -, hl⟩ := andThen_ok hl
    cases hl
    rfl
  · cases hl
    rfl
  · cases hl
    rfl

theorem step_same (s : State) (m : Measurement) (hs : Kept K s.pre) (hm : Known K m) :
    step c' s m = step c s m ∧ ∀ r, step c s m = .ok r → Kept K r.1.pre := by
  obtain ⟨h1, h2⟩ := sense_same h s m hs hm
  constructor
  · unfold step
    rw [h1]
    refine andThen_same (fun x hx => ?_)
    rw [locate_same h s x (h2 x hx).2]
    refine andThen_same (fun l hl => ?_)
    rw [report_same h x l (h2 x hx).2]
  · intro r hr
    unfold step at hr
    obtain ⟨x, hx, hr⟩ := andThen_ok hr
    obtain ⟨l, hl, hr⟩ := andThen_ok hr
    obtain ⟨out, -, hr⟩ := andThen_ok hr
    cases hr
    rw [locate_pre hl]
    exact (h2 x hx).1

theorem loop_same (s : State) (t : Int) (ms : List Measurement) (hs : Kept K s.pre) (hm : ∀ m ∈ ms, Known K m) :
    loop c' s t ms = loop c s t ms ∧ ∀ r, loop c s t ms = .ok r → Kept K r.1.pre := by
  induction ms generalizing s t with
  | nil => exact ⟨rfl, fun r hr => by cases hr; exact hs⟩
  | cons m ms ih =>
    have hms : ∀ a ∈ ms, Known K a := fun a ha => hm a (List.mem_cons_of_mem _ ha)
    unfold loop
    by_cases ht : t > m.ts
    · rw [if_pos ht, if_pos ht]
      exact ih s t hs hms
    · rw [if_neg ht, if_neg ht]
      obtain ⟨k1, k2⟩ := step_same h s m hs (hm m (by simp))
      rw [k1]
      constructor
      · refine andThen_same (fun r hr => ?_)
        rw [(ih r.1 m.ts (k2 r hr) hms).1]
      · intro q hq
        obtain ⟨r, hr, hq⟩ := andThen_ok hq
        obtain ⟨r', hr', hq⟩ := andThen_ok hq
        cases hq
        exact (ih r.1 m.ts (k2 r hr) hms).2 r' hr'

theorem navigate_same (s : State) (ms : List Measurement) (hs : Kept K s.pre) (hm : ∀ m ∈ ms, Known K m) :
    navigate c' s ms = navigate c s ms ∧ ∀ r, navigate c s ms = .ok r → Kept K r.1.pre := by
  cases ms with
  | nil => exact ⟨rfl, fun r hr => by cases hr; exact hs⟩
  | cons m ms => exact loop_same h s m.ts (m :: ms) hs hm

theorem all_same (s : State) (calls : List (List Measurement)) (hs : Kept K s.pre) (hm : ∀ b ∈ calls, ∀ m ∈ b, Known K m) :
    navigateAll c' s calls = navigateAll c s calls := by
  induction calls generalizing s with
  | nil => rfl
  | cons b bs ih =>
    obtain ⟨k1, k2⟩ := navigate_same h s b hs (hm b (by simp))
    unfold navigateAll
    rw [k1]
    refine andThen_same (fun r hr => ?_)
    rw [ih r.1 (k2 r hr) (fun x hx => hm x (List.mem_cons_of_mem _ hx))]

end

/-- **C152.** Two clients with the same settings, made for two maps that differ only in transmitters none of which sends a message, give
the same answers and come into the same state, whatever they are sent. The second client can be made if the first one can. All settings
are allowed: fingerprints or zones, satellites, barometer, stops, smoothing, altitude. -/
theorem C152_unheard {env : Env} (hs : SortsBy (fun a b : RadioData => a.distance < b.distance) env.distanceSort)
    (hrs : env.radioSorts.Lawful) (hr : East.ReadsGeometry env) {col col' : LevelCollector} {cs : CommonSettings}
    {sets : List (String × Estim.LevelSettings)} {c : Cfg} (hb : mkCfg env col cs sets = some c) {K : String → Prop}
    (hmap : SameMap K col col') :
    ∃ c', mkCfg env col' cs sets = some c' ∧ ∀ (g : Garbage) (calls : List (List Measurement)), (∀ i, Sends calls i → K i) →
      navigateAll c' (init c' g) calls = navigateAll c (init c g) calls := by
  have hpos : createPositionEstimator env col' cs sets = createPositionEstimator env col cs sets := by
    unfold createPositionEstimator
    rw [knn_same hmap, params_same hmap]
  have hdet : createLevelEstimator col' cs = createLevelEstimator col cs := by
    unfold createLevelEstimator
    rw [maps_same hmap]
  unfold mkCfg at hb ⊢
  rw [hpos, hdet]
  cases hp : createPositionEstimator env col cs sets with
  | none => rw [hp] at hb; cases hb
  | some indoor =>
    rw [hp] at hb
    simp only [Option.map_some, Option.some.injEq] at hb ⊢
    refine ⟨_, rfl, fun g calls hK => ?_⟩
    subst hb
    refine all_same (K := K) ?_ _ calls ?_ ?_
    · exact ⟨rfl, rfl, hmap, rfl, rfl, rfl, rfl, rfl, rfl, rfl, hs, hrs, hr⟩
    · intro m hm
      cases hm
    · intro b hb m hm d hd
      exact hK d.id ⟨b, hb, m, hm, d, hd, rfl⟩

theorem find_inserted (m : List (String × Transmitter XYZPoint)) (txs : List (Transmitter XYZPoint)) (i : String) :
    StdMap.find? (txs.foldl (fun m tx => StdMap.insert m tx.id tx) m) i =
      (StdMap.find? m i).or (txs.find? (fun t => decide (t.id = i))) := by
  induction txs generalizing m with
  | nil => simp
  | cons t ts ih =>
    rw [List.foldl_cons, ih, StdMap.find?_insert, List.find?_cons]
    by_cases ht : t.id = i
    · subst ht
      cases StdMap.find? m t.id <;> simp
    · simp [ht]

open Classical in
theorem find_filter (K : String → Prop) {i : String} (hi : K i) (txs : List (Transmitter GeoPoint3D)) :
    txs.find? (fun t => decide (t.id = i)) = (txs.filter (fun t => decide (K t.id))).find? (fun t => decide (t.id = i)) := by
  induction txs with
  | nil => rfl
  | cons t ts ih =>
    by_cases hk : K t.id
    · rw [List.filter_cons_of_pos (by simpa using hk), List.find?_cons, List.find?_cons, ih]
    · have : t.id ≠ i := fun e => hk (e ▸ hi)
      rw [List.filter_cons_of_neg (by simpa using hk), List.find?_cons_of_neg (by simpa using this), ih]

theorem local_same {K : String → Prop} (b : GeoPoint) (a : ℝ) {txs txs' : List (Transmitter GeoPoint3D)}
    (h : txs'.filter (fun t => open Classical in decide (K t.id)) = txs.filter (fun t => open Classical in decide (K t.id))) {i : String}
    (hi : K i) : (localTransmitters b txs' a).find? (fun t => decide (t.id = i)) = (localTransmitters b txs a).find? (fun t => decide (t.id = i)) := by
  unfold localTransmitters
  rw [List.find?_map, List.find?_map]
  change Option.map _ (txs'.find? (fun t => decide (t.id = i))) = Option.map _ (txs.find? (fun t => decide (t.id = i)))
  rw [find_filter K hi txs', find_filter K hi txs, h]

theorem add_same {K : String → Prop} {c c' : LevelCollector} (h : SameMap K c c') {l l' : Level} (hl : SameFloor K l l') :
    SameMap K (addLevel c l) (addLevel c' l') := by
  refine ⟨?_, ?_⟩
  · unfold addLevel
    dsimp only
    rw [h.indices, hl.id, List.length_append, List.length_append, h.floors.length_eq]
    rfl
  · exact List.rel_append h.floors (List.Forall₂.cons hl .nil)

/-- **C152.** Maps of this kind come from floor plans that differ only in transmitters outside `K`: adding such plans to such maps is
refused for both, with the same error, or gives such maps. -/
theorem C152_plan (bg : BoostGeometry) {K : String → Prop} {c c' : LevelCollector} (h : SameMap K c c') {g g' : GeoLevel}
    (hg : SamePlan K g g') :
    (∃ e, addGeoLevel bg c g = .error e ∧ addGeoLevel bg c' g' = .error e) ∨
      ∃ d d', addGeoLevel bg c g = .ok d ∧ addGeoLevel bg c' g' = .ok d' ∧ SameMap K d d' := by
  obtain ⟨h1, h2⟩ := hg
  have hb : getBinding g' = getBinding g := by rw [h1]; rfl
  have hgr : g'.graph = g.graph := by rw [h1]
  have hid : g'.id = g.id := by rw [h1]
  have hrp : g'.referencePoints = g.referencePoints := by rw [h1]
  have hge : g'.geometry = g.geometry := by rw [h1]
  have hal : g'.altitude = g.altitude := by rw [h1]
  unfold addGeoLevel
  dsimp only
  rw [hb, hgr, hid, hrp, hge, hal]
  cases NavGraph.convertGraph (fun p => Geo.gpsToLocal p (getBinding g)) g.graph with
  | error e => exact .inl ⟨e, rfl, rfl⟩
  | ok graph =>
    refine .inr ⟨_, _, rfl, rfl, add_same h ⟨rfl, rfl, rfl, rfl, rfl, fun i hi => ?_⟩⟩
    unfold Level.transmitter Level.addTransmitters
    dsimp only
    rw [find_inserted, find_inserted, local_same _ _ h2 hi]

/-- A second beacon in the hall of C134, just under the user. -/
noncomputable def ghost : Transmitter XYZPoint := ⟨"ghost", ⟨5, 5, 0⟩, ⟨-59, 10, 0⟩, .BEACON⟩

/-- The hall with both beacons. -/
noncomputable def haunted : Level :=
  { bareLevel "A" [ghost, Project.tx] with geometry := Project.hall.geometry, graph := Project.hall.graph }

theorem haunted_same : SameMap (fun i => i = "tx") (collect [Project.hall]) (collect [haunted]) := by
  refine ⟨rfl, ?_⟩
  rw [collect_levels, collect_levels]
  refine .cons ⟨rfl, rfl, rfl, rfl, rfl, ?_⟩ .nil
  rintro i rfl
  rw [Project.hall_tx]
  unfold Level.transmitter haunted bareLevel Level.addTransmitters
  dsimp only
  rw [find_inserted]
  simp [ghost, Project.tx]

/-- **C152, an example.** In the hall of C134 a second beacon is hung up that is never heard: the client still answers the place of
the first one. -/
theorem C152_example (g : Garbage) (k : Int) (hk : 0 ≤ k) (hk' : k < 5000) :
    ∃ c, mkCfg exEnv (collect [haunted]) plainSettings [("A", ⟨-59, 10⟩)] = some c ∧ haunted.transmitter "ghost" = some ghost ∧
      Project.hall.transmitter "ghost" = none ∧
      ∃ s outs o, navigateAll c (init c g) [[exRadio 1000, exRadio 3000], [exAccel (3000 + k)]] = .ok (s, outs ++ [o]) ∧
        o.1.status = .OK ∧ (⟨o.1.posLatitude, o.1.posLongitude⟩ : GeoPoint) = Geo.localToGps ⟨3, 4⟩ ⟨0, 0⟩ := by
  obtain ⟨c, h1, h2⟩ := C152_unheard (env := exEnv) (sortsBy_insertionSort _) Radio.insertionSorts_lawful (fun _ _ _ => rfl)
    Project.hall_built haunted_same
  obtain ⟨s, outs, o, h3, h4, -, h5, -⟩ := Project.hall_answer g k hk hk'
  refine ⟨c, h1, ?_, ?_, s, outs, o, ?_, h4, h5⟩
  · unfold Level.transmitter haunted bareLevel Level.addTransmitters
    dsimp only
    rw [find_inserted]
    simp [ghost]
  · simp [Project.hall, bareLevel, Level.addTransmitters, Level.transmitter, Project.tx, StdMap.insert, StdMap.insertSorted, StdMap.find?]
  · rw [h2 g _ ?_, h3]
    rintro i ⟨b, hb, m, hm, d, hd, rfl⟩
    simp only [List.mem_cons, List.not_mem_nil, or_false] at hb
    rcases hb with rfl | rfl
    · simp only [List.mem_cons, List.not_mem_nil, or_false] at hm
      rcases hm with rfl | rfl <;> (cases hd; rfl)
    · rw [List.mem_singleton] at hm
      subst hm
      cases hd

end Verif.Unheard
