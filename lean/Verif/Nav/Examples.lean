import Verif.Nav.Memory
import Verif.Levels.Props

/-!
# Concrete clients: the hypotheses of the theorems about the client are met, and witnesses for its defects
-/

namespace Verif.Nav

open Verif.Levels
open Verif.Knn (Result)

/-! ## Maps as the API builds them -/

/-- A map loaded by `addGeoLevel` from levels with different, non-empty ids, whose graphs were built by adding
vertices and edges, is a good map. -/
theorem good_map (bg : BoostGeometry) (gs : List GeoLevel) (hn : (gs.map GeoLevel.id).Nodup) (hne : ∀ g ∈ gs, g.id ≠ "")
    (hg : ∀ g ∈ gs, ∃ ops, g.graph = NavGraph.run ops) :
    ∃ ls, gs.foldlM (addGeoLevel bg) emptyCollector = .ok (collect ls) ∧ GoodMap ls ∧ ls.map Level.id = gs.map GeoLevel.id := by
  induction gs using List.reverseRecOn with
  | nil => exact ⟨[], rfl, ⟨by simp, by simp, by simp, by simp⟩, rfl⟩
  | append_singleton gs g ih =>
    obtain ⟨ls, h1, h2, h3⟩ := ih (by rw [List.map_append] at hn; exact (List.nodup_append.mp hn).1)
      (fun x hx => hne x (by simp [hx])) (fun x hx => hg x (by simp [hx]))
    obtain ⟨ops, hops⟩ := hg g (by simp)
    obtain ⟨ops', hops'⟩ : ∃ ops', NavGraph.convertGraph (fun p => Geo.gpsToLocal p (getBinding g)) g.graph = .ok (NavGraph.run ops') := by
      rw [hops]
      exact ⟨_, NavGraph.C11_convert_history _ _⟩
    set l : Level := Level.addTransmitters ⟨g.id, getBinding g, [], mkRadiomap (localRefPoints (getBinding g) g.referencePoints),
      localGeometry bg (getBinding g) g.geometry,
      NavGraph.run ops'⟩
      (localTransmitters (getBinding g) g.transmitters g.altitude) with hl
    have hids : (ls ++ [l]).map Level.id = (gs ++ [g]).map GeoLevel.id := by
      rw [List.map_append, List.map_append, h3]
      rfl
    refine ⟨ls ++ [l], ?_, ⟨by rw [hids]; exact hn, ?_, ?_, ?_⟩, hids⟩
    · rw [List.foldlM_append, h1]
      have : addGeoLevel bg (collect ls) g = .ok (collect (ls ++ [l])) := by
        unfold addGeoLevel
        dsimp only
        rw [hops', collect_snoc]
      change (addGeoLevel bg (collect ls) g >>= fun r => pure r) = _
      rw [this]
      rfl
    · intro x hx
      rcases List.mem_append.mp hx with hx | hx
      · exact h2.named x hx
      · rw [List.mem_singleton] at hx; rw [hx]; exact hne g (by simp)
    · intro x hx
      rcases List.mem_append.mp hx with hx | hx
      · exact h2.radiomap x hx
      · rw [List.mem_singleton] at hx; rw [hx]; rfl
    · intro x hx
      rcases List.mem_append.mp hx with hx | hx
      · exact h2.graph x hx
      · rw [List.mem_singleton] at hx; rw [hx]; exact ⟨_, rfl⟩

/-- **C79.** For every map loaded through the API with different non-empty level ids, all settings without the two
known defects (C34, C47), any correct `std::sort`, any behaviour of the geometry library and the solver: if the
constructor does not throw (with the zone algorithm it throws iff a level has no settings), no history of calls
of `navigate` throws or has undefined behaviour. -/
theorem C79_loaded (bg : BoostGeometry) (gs : List GeoLevel) (hn : (gs.map GeoLevel.id).Nodup) (hne : ∀ g ∈ gs, g.id ≠ "")
    (hg : ∀ g ∈ gs, ∃ ops, g.graph = NavGraph.run ops) (env : Env) (hsort : SortsBy (fun a b : RadioData => a.distance < b.distance) env.distanceSort)
    (hrs : env.radioSorts.Lawful) (cs : CommonSettings) (hcs : GoodSettings cs) (settings : List (String × Estim.LevelSettings)) :
    ∃ map, gs.foldlM (addGeoLevel bg) emptyCollector = .ok map ∧
      ∀ c, mkCfg env map cs settings = some c → ∀ g batches, ∃ s outs,
        navigateAll c (init c g) batches = .ok (s, outs) ∧ outs.length = (taken batches).length := by
  obtain ⟨ls, h1, h2, -⟩ := good_map bg gs hn hne hg
  refine ⟨collect ls, h1, ?_⟩
  intro c hc g batches
  have he : c.env = env ∧ c.cs = cs := by
    unfold mkCfg at hc
    cases hi : createPositionEstimator env (collect ls) cs settings with
    | none => rw [hi] at hc; cases hc
    | some i => rw [hi, Option.map_some, Option.some.injEq] at hc; rw [← hc]; exact ⟨rfl, rfl⟩
  exact C79_total (ls := ls) ⟨h2, by rw [he.2]; exact hcs, by rw [he.1]; exact hsort, by rw [he.1]; exact hrs,
    settings, by rw [he.1, he.2]; exact hc⟩ g batches

/-! ## A client -/

/-- A beacon at the origin. -/
noncomputable def exTx : Transmitter XYZPoint := ⟨"tx", ⟨0, 0, 0⟩, ⟨-59, 10, 0⟩, .BEACON⟩

/-- A level with one beacon; its bounding box is the origin. -/
noncomputable def exLevel : Level := bareLevel "A" [exTx]

/-- External algorithms. -/
noncomputable def exEnv : Env where
  radioSorts := Radio.insertionSorts
  triSorts := ⟨id, id⟩
  rpSort := id
  allowed := fun _ _ _ => True
  distanceSort := List.insertionSort (fun a b => a.distance ≤ b.distance)
  solve := fun _ => ⟨0, 0, 0⟩

/-- A client with default settings. -/
noncomputable def exCfg : Cfg where
  env := exEnv
  cs := {}
  levels := collect [exLevel]
  noSignal := 35000
  noAction := 20000
  detector := .transmitters false
  indoor := .zone [("A", -59)] [("A", 10)]
  pre := Radio.mkCfg (collect [exLevel]) {}
  fusion := Fusion.fusionConfig {}

theorem exClient : Client [exLevel] exCfg where
  map := by
    refine ⟨by simp, ?_, ?_, ?_⟩ <;> intro l hl <;> rw [List.mem_singleton] at hl <;> rw [hl]
    · simp [exLevel, bareLevel, Level.addTransmitters]
    · rfl
    · exact ⟨[], rfl⟩
  settings := ⟨fun h => (by cases h), fun h => (by cases h)⟩
  sort := sortsBy_insertionSort _
  radioSorts := Radio.insertionSorts_lawful
  built := by
    refine ⟨[("A", ⟨-59, 10⟩)], ?_⟩
    have hz : Estim.zoneParams [("A", ⟨-59, 10⟩)] (collect [exLevel]) = some ([("A", -59)], [("A", 10)]) := by
      simp [Estim.zoneParams, collect_levels, exLevel, bareLevel, Level.addTransmitters, List.foldlM, StdMap.find?, StdMap.set,
        StdMap.insertSorted]
    unfold mkCfg createPositionEstimator
    rw [if_neg (by simp [exCfg])]
    have : Estim.zoneParams [("A", ⟨-59, 10⟩)] (collect [exLevel]) = some ([("A", -59)], [("A", 10)]) := hz
    rw [this]
    simp [exCfg, createLevelEstimator]

/-- A fix at the origin at second 1. -/
noncomputable def exFix : Measurement := ⟨.sensor ⟨.LOCATION, ⟨0, 0, 5⟩⟩, 1000⟩

/-- A later accelerometer message. -/
noncomputable def exAccel (t : Int) : Measurement := ⟨.sensor ⟨.ACCELEROMETER, ⟨0, 0, 10⟩⟩, t⟩

/-- Memory with a message of the given type. -/
noncomputable def exMemory (t : SensorType) : Garbage := ⟨0, ⟨⟨t, ⟨0, 0, 5⟩⟩, 0⟩, ⟨⟨0, 0⟩, 0⟩, (t, 0), (t, 0)⟩

theorem ex_covering (k : Estim.Call) (h : k.sensor.data.values = ⟨0, 0, 5⟩) :
    Estim.FirstCovering exCfg.cs (collect [exLevel]) k exLevel := by
  refine ⟨[], [], by rw [collect_levels]; rfl, Or.inl ?_, by simp⟩
  have e : Estim.fixOn k exLevel = ⟨0, 0⟩ := by
    unfold Estim.fixOn
    rw [h]
    exact (Geo.C01_scale ⟨0, 0⟩ ⟨0, 0⟩ (by constructor <;> norm_num) (by constructor <;> norm_num)).2
  rw [e]
  simp [Estim.Box.Covers, exLevel, bareLevel, Level.addTransmitters]

theorem ex_geo : Geo.ValidLon exLevel.bindingPoint.longitude ∧ Real.cos (Geo.degToRad exLevel.bindingPoint.latitude) ≠ 0 := by
  have h : exLevel.bindingPoint = ⟨0, 0⟩ := rfl
  rw [h]
  constructor
  · unfold Geo.ValidLon; norm_num
  · simp [Geo.degToRad]

theorem ex_not_heard {ms : List Measurement} (h : ∀ m ∈ ms, ∀ d, m.data ≠ .radio d) :
    ∀ e ∈ ms, Heard [exLevel] exCfg.cs e → False := by
  rintro e he ⟨d, hd, -⟩
  exact h e he d hd

/-- **C66** is about possible histories: a fix, then radio silence. -/
theorem ex_fix (t : SensorType) :
    ∃ s out dbg, navigate exCfg (init exCfg (exMemory t)) [exFix] = .ok (s, [(out, dbg)]) ∧ out.status = .OK ∧
      out.provider = some .GNSS ∧ out.posLevel = "A" ∧ out.posLatitude = 0 ∧ out.posLongitude = 0 ∧ out.posR = some 5 := by
  obtain ⟨s', out, dbg, h1, h2, h3, h4, h5, h6, h7⟩ := C66_no_expiry exClient rfl (exMemory t) [] rfl exFix
    (fun e he hh => absurd hh (ex_not_heard (by simp [taken, exFix]) e he)) exLevel (by simp) ex_geo.1 ex_geo.2 rfl
    (by change Geo.ValidLon 0; unfold Geo.ValidLon; norm_num) (ex_covering _ rfl) (fun h => by cases h)
  refine ⟨s', out, dbg, h1, h2, h3, h4, h5, h6, ?_⟩
  rw [h7]
  change some (max (5 : ℝ) 5) = _
  rw [max_self]

/-- **C64.** Unbounded staleness: after one fix, an accelerometer message at any time `T`, however much later, is
answered with status OK and the place of the fix. -/
theorem C64_stale (T : Int) (hT : 2000 < T) :
    ∃ s a b, navigateAll exCfg (init exCfg (exMemory .ACCELEROMETER)) [[exFix], [exAccel T]] = .ok (s, [a, b]) ∧
      b.1.status = .OK ∧ b.1.posLevel = "A" ∧ b.1.posLatitude = 0 ∧ b.1.posLongitude = 0 := by
  obtain ⟨s, a, dbg, h1, h2, -, h4, h5, h6, -⟩ := ex_fix .ACCELEROMETER
  have hall : navigateAll exCfg (init exCfg (exMemory .ACCELEROMETER)) [[exFix]] = .ok (s, [(a, dbg)]) := by
    unfold navigateAll
    rw [h1]
    rfl
  have hrec : records [exFix] = [exFix] := records_ordered _ (by simp [Ordered])
  have htk : taken [[exFix]] = [exFix] := by simp [taken, hrec]
  obtain ⟨s', b, dbg', h7, -, h8⟩ := C66_expiry exClient (exMemory .ACCELEROMETER) [[exFix]] hall (exAccel T)
    (fun e he hh => absurd hh (ex_not_heard (by rw [htk]; simp [exFix, exAccel]) e he))
    (by rw [lastSensor_snoc]; simp [exAccel])
    (by
      intro pre e post he _
      rw [htk] at he
      have : e = exFix := by
        have : e ∈ [exFix] := by rw [he]; simp
        simpa using this
      rw [this]
      have h : (2000 : ℝ) < T := by exact_mod_cast hT
      change ((T : ℝ) - ((1000 : Int) : ℝ)) / 1000 > 1
      push_cast
      rw [gt_iff_lt, lt_div_iff₀ (by norm_num)]
      linarith)
  refine ⟨s', (a, dbg), (b, dbg'), ?_, ?_⟩
  · unfold navigateAll
    rw [h1]
    simp only [andThen]
    unfold navigateAll
    rw [h7]
    rfl
  · rcases h8 with ⟨o, ho, hs⟩ | hno
    · simp at ho
      subst ho
      obtain ⟨g1, g2, g3, g4, g5, -⟩ := hs
      exact ⟨g2, g3 ▸ h4, g4 ▸ h5, g5 ▸ h6⟩
    · exfalso
      have hall2 : navigateAll exCfg (init exCfg (exMemory .ACCELEROMETER)) [[exFix], [exAccel T]] = .ok (s', [(a, dbg), (b, dbg')]) := by
        unfold navigateAll
        rw [h1]
        simp only [andThen]
        unfold navigateAll
        rw [h7]
        rfl
      exact C64_never_lost exClient (exMemory .ACCELEROMETER) [[exFix], [exAccel T]] (before := []) (after := []) hall2 rfl h2 hno

/-- **C82.** The contents of uninitialised memory can decide the output: if the first measurement is an NMEA message,
the client reports a position "from nowhere" when the memory happens to look like a fix, and NO_LEVEL otherwise. -/
theorem C82_observable :
    ∃ s a s' b, navigate exCfg (init exCfg (exMemory .LOCATION)) [⟨.nmea ⟨0, 0⟩, 0⟩] = .ok (s, [a]) ∧
      navigate exCfg (init exCfg (exMemory .ACCELEROMETER)) [⟨.nmea ⟨0, 0⟩, 0⟩] = .ok (s', [b]) ∧
      a.1.status = .OK ∧ b.1.status = .NO_LEVEL := by
  have hsil : Silent [exLevel] exCfg.cs (taken []) ⟨.nmea ⟨0, 0⟩, 0⟩ :=
    fun e he hh => absurd hh (ex_not_heard (by simp [taken]) e he)
  obtain ⟨s, a, d, h1, h2, -⟩ := C66_no_expiry exClient rfl (exMemory .LOCATION) [] rfl ⟨.nmea ⟨0, 0⟩, 0⟩
    hsil exLevel (by simp) ex_geo.1 ex_geo.2 rfl
    (by change Geo.ValidLon 0; unfold Geo.ValidLon; norm_num) (ex_covering _ rfl) (fun h => by cases h)
  obtain ⟨s', b, d', h3, -, h4⟩ := C66_expiry exClient (exMemory .ACCELEROMETER) [] rfl ⟨.nmea ⟨0, 0⟩, 0⟩
    hsil (by simp [lastSensor, taken, exMemory]) (by intro a e b he; simp [taken] at he)
  refine ⟨s, (a, d), s', (b, d'), h1, h3, h2, ?_⟩
  rcases h4 with ⟨o, ho, -⟩ | h
  · simp at ho
  · exact h

/-- A well started history: an accelerometer message, an NMEA message, a fix. -/
example : WellStarted (taken [[exAccel 1], [⟨.nmea ⟨1, 8⟩, 2⟩], [exFix]]) := by
  have hr : ∀ m : Measurement, records [m] = [m] := fun m => records_ordered _ (by simp [Ordered])
  have ht : taken [[exAccel 1], [⟨.nmea ⟨1, 8⟩, 2⟩], [exFix]] = [exAccel 1, ⟨.nmea ⟨1, 8⟩, 2⟩, exFix] := by
    simp [taken, hr]
  rw [ht]
  refine ⟨fun m hm => ?_, ?_⟩
  · simp at hm; rw [← hm]; exact ⟨_, rfl⟩
  · rintro a m b he ⟨d, hd, hl⟩
    rcases a with _ | ⟨x, _ | ⟨y, a⟩⟩
    · simp at he; rw [← he.1] at hd; simp [exAccel] at hd; rw [← hd] at hl; cases hl
    · simp at he; rw [← he.2.1] at hd; cases hd
    · simp at he; exact ⟨y, by simp, ⟨1, 8⟩, by rw [← he.2.1]⟩

/-- A beacon message. -/
noncomputable def exRadio (t : Int) : Measurement := ⟨.radio ⟨.BEACON, "tx", -70, 0, 0, 0⟩, t⟩

theorem ex_heard (t : Int) : Heard [exLevel] exCfg.cs (exRadio t) := by
  refine ⟨_, rfl, ?_, ?_, ?_, .inr ⟨exTx, ⟨exLevel, rfl, ?_, rfl⟩, ?_⟩⟩
  · simp [Radio.TypeEnabled, exCfg]
  · intro _; simp [exCfg]; norm_num
  · intro h; exact absurd rfl h
  · simp [exLevel, bareLevel, Level.addTransmitters, exTx, StdMap.insert, StdMap.insertSorted]
  · simp [exTx, exCfg]

/-- **C65**, silence: 40 seconds after a beacon message. **C65, C80**, freshness: 30 seconds after it. -/
example : Silent [exLevel] exCfg.cs [exRadio 1000] (exAccel 41000) ∧ Fresh [exLevel] exCfg.cs [exRadio 1000] (exAccel 31000) ∧
    0 < exCfg.cs.noActionTimeThreshold := by
  have hna : ∀ t, ¬ Heard [exLevel] exCfg.cs (exAccel t) := by rintro t ⟨d, hd, -⟩; cases hd
  refine ⟨?_, ⟨[], exRadio 1000, [exAccel 31000], rfl, ex_heard _, ?_, ?_⟩, ?_⟩
  · intro e he hh
    simp only [List.cons_append, List.nil_append, List.mem_cons, List.not_mem_nil, or_false] at he
    rcases he with rfl | rfl
    · change (1000 : Int) + 1000 * 35 ≤ 41000; norm_num
    · exact absurd hh (hna _)
  · intro e he; simp at he; rw [he]; exact hna _
  · change (31000 : Int) < 1000 + 1000 * 35; norm_num
  · change (0 : Int) < 20; norm_num

/-- **C62.** For unordered measurements the split into batches matters: an older measurement is dropped within a
batch, but not at the beginning of the next one. -/
theorem C62_unordered (g : Garbage) :
    ∃ s outs s' outs', navigateAll exCfg (init exCfg g) [[exAccel 2, exAccel 1]] = .ok (s, outs) ∧
      navigateAll exCfg (init exCfg g) [[exAccel 2], [exAccel 1]] = .ok (s', outs') ∧ outs.length = 1 ∧ outs'.length = 2 := by
  obtain ⟨s, outs, h1, h2⟩ := C79_total exClient g [[exAccel 2, exAccel 1]]
  obtain ⟨s', outs', h3, h4⟩ := C79_total exClient g [[exAccel 2], [exAccel 1]]
  refine ⟨s, outs, s', outs', h1, h3, ?_, ?_⟩
  · rw [h2]; simp [taken, records, exAccel, List.zipIdx]
  · rw [h4]; simp [taken, records, List.zipIdx]

/-- **C61**: the second of three measurements is dropped. -/
example : records [exAccel 2, exAccel 1, exAccel 3] = [exAccel 2, exAccel 3] := by
  simp [records, exAccel, List.zipIdx]

end Verif.Nav
