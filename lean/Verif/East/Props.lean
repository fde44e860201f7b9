import Verif.East.Lemmas
import Verif.Nav.Examples

/-!
# Property theorems for C142: the same building further east
-/

namespace Verif.East

open Verif.Levels Verif.Nav
open Verif.Geo (XYPoint GeoPoint)
open Verif.Knn (Result)

/-- **C142, the map.** A floor plan that lies `δ` degrees further east gives the same floor with the same local coordinates; only
the point to which these refer lies `δ` degrees further east. -/
theorem C142_map (bg : BoostGeometry) (δ : ℝ) (c : LevelCollector) (g : GeoLevel) :
    addGeoLevel bg (eastMap δ c) (eastFloor δ g) = (addGeoLevel bg c g).map (eastMap δ) := by
  unfold addGeoLevel
  dsimp only
  rw [binding_east, graph_east, geometry_east, refPoints_east, transmitters_east]
  cases NavGraph.convertGraph (fun p => Geo.gpsToLocal p (getBinding g)) g.graph with
  | error e => rfl
  | ok graph =>
    dsimp only [Except.map]
    congr 1
    rw [← addLevel_east]
    rfl

/-- The state; the stored sensor message may be a satellite fix. -/
def eastState (δ : ℝ) (s : State) : State := { s with pre := eastPre δ s.pre }

/-- What is sensed. -/
def eastSensed (δ : ℝ) (x : Sensed) : Sensed := { x with pre := eastPre δ x.pre }

/-- What is located. -/
def eastLocated (δ : ℝ) (l : Located) : Located := { l with state := eastState δ l.state }

/-- A client of the map further east. -/
structure EastClient (δ : ℝ) (c c' : Cfg) : Prop where
  env : c'.env = c.env
  cs : c'.cs = c.cs
  levels : c'.levels = eastMap δ c.levels
  noSignal : c'.noSignal = c.noSignal
  noAction : c'.noAction = c.noAction
  detector : c'.detector = c.detector
  indoor : c'.indoor = c.indoor
  pre : c.pre = Radio.mkCfg c.levels c.cs
  pre' : c'.pre = Radio.mkCfg (eastMap δ c.levels) c.cs
  fusion : c'.fusion = c.fusion

/-- The outcomes of two computations are related. -/
def Related {α β : Type} (R : α → β → Prop) : Result α → Result β → Prop
  | .ok a, .ok b => R a b
  | .throws, .throws => True
  | .undefined, .undefined => True
  | _, _ => False

theorem Related.andThen {α β γ ε : Type} {R : α → β → Prop} {S : γ → ε → Prop} {a : Result α} {b : Result β} {f : α → Result γ}
    {g : β → Result ε} (h : Related R a b) (hf : ∀ x y, R x y → Related S (f x) (g y)) : Related S (Nav.andThen a f) (Nav.andThen b g) := by
  cases a <;> cases b <;> simp only [Related] at h
  · exact hf _ _ h
  · trivial
  · trivial

theorem Related.refl {α : Type} (a : Result α) : Related Eq a a := by
  cases a <;> simp [Related]

section
variable {δ : ℝ} {c c' : Cfg} (h : EastClient δ c c')
include h

theorem detect_east (radio : List RadioData) : detectLevel c' radio = detectLevel c radio := by
  unfold detectLevel
  rw [h.detector, h.levels]
  cases c.detector with
  | radiomap b maps => exact byRadiomap_east δ b maps c.levels radio
  | transmitters p => exact byTransmitters_east δ p c.levels radio

theorem sense_east (s : State) (m : Measurement) :
    Related (fun x y => y = eastSensed δ x) (sense c s m) (sense c' (eastState δ s) (eastMsg δ m)) := by
  unfold sense
  dsimp only
  rw [h.pre', h.pre, show (eastState δ s).pre = eastPre δ s.pre from rfl, update_east, h.fusion]
  generalize Radio.updateMeasurements (Radio.mkCfg c.levels c.cs) s.pre m = pre
  have hd := displacement_east δ c.fusion s.fusion pre.sensor pre.currentTs
  rw [show Fusion.calculateDisplacement c.fusion (eastState δ s).fusion (eastPre δ pre).sensor (eastPre δ pre).currentTs =
    Fusion.calculateDisplacement c.fusion s.fusion pre.sensor pre.currentTs from hd]
  refine Related.andThen (Related.refl _) ?_
  rintro f _ rfl
  rw [extract_east, h.env]
  generalize Radio.extractRadioMeasurements c.env.radioSorts (Radio.mkCfg c.levels c.cs) pre f.2.lastMotionTs = e
  refine Related.andThen (Related.refl _) ?_
  rintro radio _ rfl
  rw [detect_east h]
  refine Related.andThen (Related.refl _) ?_
  rintro det _ rfl
  rw [h.cs, h.levels]
  have ho := outdoor_east δ c.cs c.levels s.outdoor pre.currentTs pre.sensor pre.nmea s.flagIndoorPos
  have hl := floor_east δ c.cs.useBarometer s.level det pre.sensor
  rw [show Estim.outdoorPosition c.cs (eastMap δ c.levels) (eastState δ s).outdoor (eastPre δ pre).currentTs (eastPre δ pre).sensor
      (eastPre δ pre).nmea (eastState δ s).flagIndoorPos =
        Estim.outdoorPosition c.cs c.levels s.outdoor pre.currentTs pre.sensor pre.nmea s.flagIndoorPos from ho,
    show LevelEst.calculateLevel c.cs.useBarometer (eastState δ s).level det (eastPre δ pre).sensor =
      LevelEst.calculateLevel c.cs.useBarometer s.level det pre.sensor from hl]
  refine Related.andThen (Related.refl _) ?_
  rintro o _ rfl
  rfl

theorem locate_east (hr : ReadsGeometry c.env) (s : State) (x : Sensed) :
    Related (fun l l' => l' = eastLocated δ l) (locate c s x) (locate c' (eastState δ s) (eastSensed δ x)) := by
  have ht : timedOutLevel c' (eastSensed δ x) = timedOutLevel c x := by
    unfold timedOutLevel
    rw [h.noSignal, h.noAction]
    rfl
  unfold locate
  dsimp only
  rw [ht, h.levels, has_east, level_east]
  by_cases hl : hasLevel c.levels (timedOutLevel c x) = true
  · rw [if_pos hl, if_pos hl]
    cases Levels.level c.levels (timedOutLevel c x) with
    | none => trivial
    | some lv =>
      simp only [Option.map, orThrow, Nav.andThen]
      unfold locateIndoor
      change Related _ _ (Nav.andThen (indoorPosition c' s.indoorPos (eastLevel δ lv) x.pre.currentTs x.radio) _)
      rw [indoor_east δ h.indoor]
      refine Related.andThen (Related.refl _) ?_
      rintro i _ rfl
      rw [h.cs]
      dsimp only
      rw [show Post.fusePositions c.cs (eastState δ s).post (eastSensed δ x).pre.currentTs i.2.1 (eastSensed δ x).outdoorPos i.1 =
        Post.fusePositions c.cs s.post x.pre.currentTs i.2.1 x.outdoorPos i.1 from rfl]
      generalize Post.fusePositions c.cs s.post x.pre.currentTs i.2.1 x.outdoorPos i.1 = fused
      refine Related.andThen (Related.refl _) ?_
      rintro hd _ rfl
      have hp : Post.getProcessedPosition c.cs (c'.env.allowed (eastLevel δ lv)) fused.2 fused.1 x.pre.currentTs x.info.lastMotionTs
          (eastLevel δ lv) = Post.getProcessedPosition c.cs (c.env.allowed lv) fused.2 fused.1 x.pre.currentTs x.info.lastMotionTs lv := by
        rw [h.env, hr (eastLevel δ lv) lv rfl]
        rfl
      change Related _ _ (Nav.andThen (orUndefined (Post.getProcessedPosition c.cs (c'.env.allowed (eastLevel δ lv)) fused.2 fused.1
        x.pre.currentTs x.info.lastMotionTs (eastLevel δ lv))) _)
      rw [hp]
      refine Related.andThen (Related.refl _) ?_
      rintro p _ rfl
      have ha : finalAzimuth c' hd.1 hd.2.1 fused.1 = finalAzimuth c hd.1 hd.2.1 fused.1 := by
        unfold finalAzimuth
        rw [h.cs]
      change (⟨_, _, _⟩ : Located) = _
      rw [ha]
      rfl
  · rw [if_neg hl, if_neg hl]
    by_cases ho : x.outdoorPos.isEmpty = false
    · rw [if_pos ho, if_pos (show (eastSensed δ x).outdoorPos.isEmpty = false from ho)]
      rfl
    · rw [if_neg ho, if_neg (show ¬ (eastSensed δ x).outdoorPos.isEmpty = false from ho)]
      rfl

theorem report_east (x : Sensed) (l : Located) : Related (EastAnswer δ) (report c x l) (report c' (eastSensed δ x) (eastLocated δ l)) := by
  have ha : ∀ lv, altitudeOf c' (eastLevel δ lv) x.radio = altitudeOf c lv x.radio := by
    intro lv
    unfold altitudeOf
    rw [h.cs, h.env, altitude_east]
  unfold report
  dsimp only
  rw [h.levels]
  change Related _ _ (if l.state.position.isEmpty = true then _ else if l.state.position.levelId ≠ "" then
    Nav.andThen (orThrow (Levels.level (eastMap δ c.levels) l.state.position.levelId)) _ else _)
  rw [level_east]
  by_cases he : l.state.position.isEmpty = true
  · rw [if_pos he, if_pos he]
    exact ⟨rfl, rfl, rfl, fun hne => absurd rfl hne, fun _ => rfl, rfl, rfl, rfl, rfl⟩
  · rw [if_neg he, if_neg he]
    by_cases hid : l.state.position.levelId ≠ ""
    · rw [if_pos hid, if_pos hid]
      cases Levels.level c.levels l.state.position.levelId with
      | none => trivial
      | some lv =>
        simp only [Option.map, orThrow, Nav.andThen]
        rw [show altitudeOf c' (eastLevel δ lv) (eastSensed δ x).radio = altitudeOf c lv x.radio from ha lv]
        cases altitudeOf c lv x.radio with
        | throws => trivial
        | undefined => trivial
        | ok a =>
          obtain ⟨g1, g2⟩ := gps_east δ ⟨l.state.position.x, l.state.position.y⟩ lv.bindingPoint
          exact ⟨rfl, rfl, g1, fun _ => g2, fun he => absurd he hid, rfl, rfl, rfl, rfl⟩
    · rw [if_neg hid, if_neg hid]
      exact ⟨rfl, rfl, rfl, fun hne => absurd hne hid, fun _ => rfl, rfl, rfl, rfl, rfl⟩

theorem step_east (hr : ReadsGeometry c.env) (s : State) (m : Measurement) :
    Related (fun r r' => r'.1 = eastState δ r.1 ∧ EastAnswer δ r.2.1 r'.2.1 ∧ r'.2.2 = r.2.2)
      (step c s m) (step c' (eastState δ s) (eastMsg δ m)) := by
  unfold step
  refine Related.andThen (sense_east h s m) ?_
  rintro x _ rfl
  refine Related.andThen (locate_east h hr s x) ?_
  rintro l _ rfl
  refine Related.andThen (report_east h x l) ?_
  intro o o' ho
  exact ⟨rfl, ho, rfl⟩

/-- The answers to a list of measurements. -/
def EastAnswers (δ : ℝ) (r r' : State × List (Output × DebugState)) : Prop :=
  r'.1 = eastState δ r.1 ∧ List.Forall₂ (fun a b => EastAnswer δ a.1 b.1 ∧ b.2 = a.2) r.2 r'.2

omit h in
theorem msg_ts (m : Measurement) : (eastMsg δ m).ts = m.ts := by
  obtain ⟨d, t⟩ := m
  cases d <;> rfl

theorem loop_east (hr : ReadsGeometry c.env) (s : State) (t : Int) (ms : List Measurement) :
    Related (EastAnswers δ) (loop c s t ms) (loop c' (eastState δ s) t (ms.map (eastMsg δ))) := by
  induction ms generalizing s t with
  | nil => exact ⟨rfl, List.Forall₂.nil⟩
  | cons m ms ih =>
    rw [List.map_cons]
    unfold loop
    rw [msg_ts]
    by_cases ht : t > m.ts
    · rw [if_pos ht, if_pos ht]
      exact ih s t
    · rw [if_neg ht, if_neg ht]
      refine Related.andThen (step_east h hr s m) ?_
      rintro r r' ⟨h1, h2, h3⟩
      rw [h1]
      refine Related.andThen (ih r.1 m.ts) ?_
      rintro q q' ⟨k1, k2⟩
      exact ⟨k1, List.Forall₂.cons ⟨h2, h3⟩ k2⟩

theorem navigate_east (hr : ReadsGeometry c.env) (s : State) (ms : List Measurement) :
    Related (EastAnswers δ) (navigate c s ms) (navigate c' (eastState δ s) (ms.map (eastMsg δ))) := by
  cases ms with
  | nil => exact ⟨rfl, List.Forall₂.nil⟩
  | cons m ms =>
    have := loop_east h hr s m.ts (m :: ms)
    rw [List.map_cons] at this ⊢
    unfold navigate
    dsimp only
    rw [msg_ts]
    exact this

theorem all_east (hr : ReadsGeometry c.env) (s : State) (batches : List (List Measurement)) :
    Related (EastAnswers δ) (navigateAll c s batches) (navigateAll c' (eastState δ s) (batches.map (List.map (eastMsg δ)))) := by
  induction batches generalizing s with
  | nil => exact ⟨rfl, List.Forall₂.nil⟩
  | cons b bs ih =>
    rw [List.map_cons]
    unfold navigateAll
    refine Related.andThen (navigate_east h hr s b) ?_
    rintro r r' ⟨h1, h2⟩
    rw [h1]
    refine Related.andThen (ih r.1) ?_
    rintro q q' ⟨k1, k2⟩
    exact ⟨k1, List.rel_append h2 k2⟩

end

/-- The memory that the constructors leave as it is; the sensor message in it may be a satellite fix. -/
def eastGarbage (δ : ℝ) (g : Garbage) : Garbage := { g with sensor := ⟨eastSensor δ g.sensor.data, g.sensor.ts⟩ }

/-- **C142.** A client of a map that lies `δ` degrees further east is made from the same settings if the first one is, and answers
every batch of messages, with satellite fixes `δ` degrees further east, by the same places `δ` degrees further east: floors,
latitudes, radii, directions, altitudes, statuses and times are the same. All settings are allowed. -/
theorem C142_east {ls : List Level} {c : Cfg} (hc : Client ls c) {sets : List (String × Estim.LevelSettings)}
    (hb : mkCfg c.env (collect ls) c.cs sets = some c) (hr : ReadsGeometry c.env) (δ : ℝ) :
    ∃ c', mkCfg c.env (eastMap δ (collect ls)) c.cs sets = some c' ∧
      ∀ (g : Garbage) (batches : List (List Measurement)), ∃ s s' outs outs',
        navigateAll c (init c g) batches = .ok (s, outs) ∧
        navigateAll c' (init c' (eastGarbage δ g)) (batches.map (List.map (eastMsg δ))) = .ok (s', outs') ∧
        List.Forall₂ (fun a b => EastAnswer δ a.1 b.1 ∧ b.2 = a.2) outs outs' := by
  have hpos : createPositionEstimator c.env (eastMap δ (collect ls)) c.cs sets = createPositionEstimator c.env (collect ls) c.cs sets := by
    unfold createPositionEstimator
    rw [knn_east, params_east]
  have hdet : createLevelEstimator (eastMap δ (collect ls)) c.cs = createLevelEstimator (collect ls) c.cs := by
    unfold createLevelEstimator
    rw [maps_east]
  have hb0 := hb
  unfold mkCfg at hb ⊢
  rw [hpos, hdet]
  cases hp : createPositionEstimator c.env (collect ls) c.cs sets with
  | none => rw [hp] at hb; cases hb
  | some indoor =>
    rw [hp] at hb
    simp only [Option.map_some, Option.some.injEq] at hb ⊢
    refine ⟨_, rfl, ?_⟩
    intro g batches
    have he : EastClient δ c ⟨c.env, c.cs, eastMap δ (collect ls), 1000 * c.cs.noSignalTimeThreshold,
        1000 * c.cs.noActionTimeThreshold, createLevelEstimator (collect ls) c.cs, indoor,
        Radio.mkCfg (eastMap δ (collect ls)) c.cs, Fusion.fusionConfig c.cs⟩ := by
      have hl : c.levels = collect ls := by rw [← hb]
      refine ⟨rfl, rfl, by rw [hl], ?_, ?_, ?_, ?_, ?_, by rw [hl], ?_⟩
      · rw [← hb]
      · rw [← hb]
      · rw [← hb]
      · rw [← hb]
      · rw [← hb]
      · rw [← hb]
    have hall := all_east he hr (init c g) batches
    obtain ⟨s, outs, h1, -⟩ := C79_total hc g batches
    rw [h1] at hall
    generalize hq : navigateAll _ (eastState δ (init c g)) _ = q at hall
    cases q with
    | throws => exact hall.elim
    | undefined => exact hall.elim
    | ok r =>
      obtain ⟨s', outs'⟩ := r
      exact ⟨s, s', outs, outs', h1, hq, hall.2⟩

/-- **C142, north.** Moving a building north is not neutral: a parallel is shorter there, so the same difference of longitude is a
shorter way. At 60 degrees it is half as long as on the equator. -/
theorem C142_north (lon bind : ℝ) :
    (Geo.gpsToLocal ⟨60, lon⟩ ⟨60, bind⟩).x = (Geo.gpsToLocal ⟨0, lon⟩ ⟨0, bind⟩).x / 2 := by
  unfold Geo.gpsToLocal Geo.latitudeCircumference Geo.degToRad
  dsimp only
  rw [show (60 : ℝ) * Real.pi / 180 = Real.pi / 3 by ring, Real.cos_pi_div_three]
  simp
  ring

/-- **C142** is about possible clients and messages: the client with the default settings of the examples names the place of a
satellite fix; with the map and the fix 50 degrees further east it names a place 50 degrees further east. -/
example (t : SensorType) : ∃ sets c' s' out dbg, mkCfg exCfg.env (eastMap 50 (collect [exLevel])) exCfg.cs sets = some c' ∧
    navigateAll c' (init c' (eastGarbage 50 (exMemory t))) [[eastMsg 50 exFix]] = .ok (s', [(out, dbg)]) ∧
    out.status = .OK ∧ out.posLevel = "A" ∧ out.posLatitude = 0 ∧ ∃ k : ℤ, out.posLongitude = 50 + 360 * k := by
  obtain ⟨sets, hb⟩ := exClient.built
  obtain ⟨c', h1, h2⟩ := C142_east exClient hb (fun _ _ _ => rfl) 50
  obtain ⟨s, s', outs, outs', h3, h4, h5⟩ := h2 (exMemory t) [[exFix]]
  obtain ⟨s1, out, dbg, k1, k2, k3, k4, k5, k6, -⟩ := ex_fix t
  have e : navigateAll exCfg (init exCfg (exMemory t)) [[exFix]] = .ok (s1, [(out, dbg)]) := by
    unfold navigateAll
    rw [k1]
    rfl
  rw [e] at h3
  cases h3
  cases h5 with
  | cons a b =>
    rename_i o' os
    cases b
    obtain ⟨o', d'⟩ := o'
    obtain ⟨a, -⟩ := a
    obtain ⟨k, hk⟩ := a.longitude (by rw [k4]; decide)
    refine ⟨sets, c', s', o', d', h1, h4, by rw [a.status, k2], by rw [a.level, k4], by rw [a.latitude, k5], k, ?_⟩
    rw [hk, k6]
    ring

end Verif.East
