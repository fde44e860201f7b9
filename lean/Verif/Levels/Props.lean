import Verif.Levels.Lemmas
import Verif.Geo.Props
import Verif.NavGraph.Props

/-!
# C12, C13, C14, C15, C72, C73: levels, transmitters, reference points, barriers
-/

namespace Verif.Levels

open Verif.Geo (XYPoint GeoPoint)

/-- **C12.** `levels()` lists all added levels in order; `hasLevel` says whether the id was added;
`level(id)` returns the first one added under that id and throws iff there is none. -/
theorem C12_lookup (ls : List Level) (id : String) :
    (collect ls).levels = ls ∧
    (hasLevel (collect ls) id = true ↔ ∃ l ∈ ls, l.id = id) ∧
    level (collect ls) id = ls.find? (fun l => l.id == id) ∧
    (level (collect ls) id = none ↔ hasLevel (collect ls) id = false) := by
  have hlev : level (collect ls) id = ls.find? (fun l => l.id == id) := by
    unfold level
    rw [collect_index, collect_levels]
    rw [List.find?_eq_bind_findIdx?_getElem?]
    cases ls.findIdx? (fun l => l.id == id) <;> rfl
  have hhas : hasLevel (collect ls) id = true ↔ ∃ l ∈ ls, l.id = id := by
    unfold hasLevel
    rw [collect_index, List.findIdx?_isSome]
    simp
  refine ⟨collect_levels ls, hhas, hlev, ?_⟩
  rw [hlev, List.find?_eq_none]
  rw [← Bool.not_eq_true, hhas]
  simp

/-- **C12.** The returned level carries the id asked for, and every level added earlier has another
id. -/
theorem C12_first_wins (ls : List Level) (id : String) (l : Level)
    (h : level (collect ls) id = some l) :
    l.id = id ∧ ∃ before after, ls = before ++ l :: after ∧ ∀ k ∈ before, k.id ≠ id := by
  rw [(C12_lookup ls id).2.2.1, List.find?_eq_some_iff_append] at h
  obtain ⟨h1, as, bs, h2, h3⟩ := h
  refine ⟨by simpa using h1, as, bs, h2, ?_⟩
  intro k hk; simpa using h3 k hk

/-- **C13.** The level found for a transmitter is the first added level that contains it; none is
found iff no level contains it. -/
theorem C13_find (ls : List Level) (tx : String) :
    (findLevelByTransmitterId (collect ls) tx = none ↔ ∀ l ∈ ls, l.containsTransmitter tx = false) ∧
    ∀ id, findLevelByTransmitterId (collect ls) tx = some id →
      ∃ before l after, ls = before ++ l :: after ∧ l.id = id ∧ l.containsTransmitter tx = true ∧
        ∀ k ∈ before, k.containsTransmitter tx = false := by
  unfold findLevelByTransmitterId
  rw [collect_levels]
  constructor
  · simp
  · intro id h
    rw [Option.map_eq_some_iff] at h
    obtain ⟨l, hl, rfl⟩ := h
    rw [List.find?_eq_some_iff_append] at hl
    obtain ⟨h1, as, bs, h2, h3⟩ := hl
    exact ⟨as, l, bs, h2, rfl, h1, fun k hk => by simpa using h3 k hk⟩

/-- **C13.** With unique level ids the two step lookup `level(find(tx)).transmitter(tx)` used by the
measurement preprocessor never throws. -/
theorem C13_two_step_lookup (ls : List Level) (huniq : (ls.map Level.id).Nodup) (tx id : String)
    (h : findLevelByTransmitterId (collect ls) tx = some id) :
    ∃ l t, level (collect ls) id = some l ∧ l.transmitter tx = some t := by
  obtain ⟨before, l, after, rfl, rfl, hc, -⟩ := (C13_find ls tx).2 id h
  refine ⟨l, ?_⟩
  have hlev : level (collect (before ++ l :: after)) l.id = some l := by
    rw [(C12_lookup _ _).2.2.1, List.find?_eq_some_iff_append]
    refine ⟨by simp, before, after, rfl, ?_⟩
    intro k hk
    have hn : (before.map Level.id ++ l.id :: after.map Level.id).Nodup := by simpa using huniq
    have hd := (List.nodup_append.mp hn).2.2
    have := hd k.id (List.mem_map.mpr ⟨k, hk, rfl⟩) l.id List.mem_cons_self
    simpa using this
  unfold Level.containsTransmitter at hc
  obtain ⟨t, ht⟩ := Option.isSome_iff_exists.mp hc
  exact ⟨t, hlev, ht⟩

/-- **C13**, what fails without unique ids: the second lookup throws. -/
theorem C13_duplicate_ids_throw : ∃ (ls : List Level) (tx id : String) (l : Level),
    findLevelByTransmitterId (collect ls) tx = some id ∧ level (collect ls) id = some l ∧
    l.transmitter tx = none := by
  refine ⟨[bareLevel "L" [], bareLevel "L" [⟨"tx", ⟨0, 0, 0⟩, ⟨0, 0, 0⟩, .BEACON⟩]], "tx", "L",
    bareLevel "L" [], ?_, ?_, ?_⟩
  · rfl
  · rfl
  · rfl

example : ∃ (ls : List Level) (tx id : String), (ls.map Level.id).Nodup ∧ ls.length = 2 ∧
    findLevelByTransmitterId (collect ls) tx = some id := by
  refine ⟨[bareLevel "A" [], bareLevel "B" [⟨"tx", ⟨0, 0, 0⟩, ⟨0, 0, 0⟩, .BEACON⟩]], "tx", "B", ?_, rfl, rfl⟩
  decide

/-- **C14.** The first transmitter registered under an id wins, over all `addTransmitters` calls. -/
theorem C14_first_transmitter_wins (l : Level) (txs : List (Transmitter XYZPoint)) (id : String) :
    (l.addTransmitters txs).transmitter id =
      (l.transmitter id).or (txs.find? (fun t => t.id == id)) := by
  unfold Level.addTransmitters Level.transmitter
  simp only
  generalize l.transmitters = m
  induction txs generalizing m with
  | nil => simp
  | cons t txs ih =>
    rw [List.foldl_cons, ih, StdMap.find?_insert]
    by_cases h : t.id = id
    · subst h
      rw [if_pos rfl]
      cases hf : StdMap.find? m t.id <;> simp
    · rw [if_neg h]
      cases hf : StdMap.find? m id <;> simp [h]

/-- **C14.** The measurements of a level: exactly those whose transmitter belongs to the level, in
the original order (with multiplicity). -/
theorem C14_level_measurements {M : Type} (idOf : M → String) (l : Level) (msr : List M) :
    (getLevelRadioMeasurements idOf l msr).Sublist msr ∧
    ∀ m, (getLevelRadioMeasurements idOf l msr).countP (fun x => decide (idOf x = m)) =
      if (l.transmitter m).isSome then msr.countP (fun x => decide (idOf x = m)) else 0 := by
  refine ⟨List.filter_sublist, fun m => ?_⟩
  unfold getLevelRadioMeasurements
  rw [List.countP_filter]
  have hex : (l.transmitter m).isSome = true ↔ l.containsTransmitter m = true := by
    unfold Level.containsTransmitter Level.transmitter
    exact Iff.rfl
  split_ifs with h
  · rw [hex] at h
    apply List.countP_congr
    intro x _
    simp only [Bool.and_eq_true, decide_eq_true_eq]
    constructor
    · exact fun h' => h'.1
    · intro h'; rw [h']; exact ⟨rfl, h⟩
  · rw [hex] at h
    rw [List.countP_eq_zero]
    intro x _
    simp only [Bool.and_eq_true, decide_eq_true_eq]
    rintro ⟨h1, h2⟩
    rw [h1] at h2; exact h h2

example : getLevelRadioMeasurements (M := String) id
    (bareLevel "B" [⟨"tx", ⟨0, 0, 0⟩, ⟨0, 0, 0⟩, .BEACON⟩]) ["u", "tx", "w", "tx"] = ["tx", "tx"] := by
  rfl

/-- **C15.** The radiomap index: an id is present iff some reference point carries it, the lookup
returns the first such point, and throws iff there is none. -/
theorem C15_radiomap (rps : List (ReferencePoint XYPoint)) (id : String) :
    (mkRadiomap rps).referencePoints = rps ∧
    ((mkRadiomap rps).hasReferencePoint id = true ↔ ∃ rp ∈ rps, rp.id = id) ∧
    (mkRadiomap rps).getReferencePoint id = rps.find? (fun rp => rp.id == id) := by
  have hidx : StdMap.find? (mkRadiomap rps).index id = rps.findIdx? (fun rp => rp.id == id) := by
    unfold mkRadiomap; simp only; rw [buildIndex_find]; simp
  refine ⟨rfl, ?_, ?_⟩
  · unfold Radiomap.hasReferencePoint; rw [hidx, List.findIdx?_isSome]; simp
  · unfold Radiomap.getReferencePoint
    rw [hidx, List.find?_eq_bind_findIdx?_getElem?]
    cases rps.findIdx? (fun rp => rp.id == id) <;> rfl

example : ∃ rps : List (ReferencePoint XYPoint), rps.length = 2 ∧
    ((mkRadiomap rps).getReferencePoint "b").map (fun r => r.fingerprints.length) = some 0 := by
  exact ⟨[⟨"a", ⟨0, 0⟩, []⟩, ⟨"b", ⟨1, 1⟩, []⟩], rfl, rfl⟩

/-- **C72.** The barrier test: a path is clear iff it is covered by the outer ring of some allowed
polygon and meets no (corrected) inner ring of any polygon. -/
theorem C72_barriers (bg : BoostGeometry) (hbg : bg.Lawful) (area : List Polygon) (box : Box)
    (path : List XYPoint) :
    isPathTouchesBarriers bg (mkLevelGeometry bg area box) path = false ↔
      (∃ poly ∈ area, bg.coveredBy path poly.outer = true) ∧
      ∀ poly ∈ area, ∀ inner ∈ poly.inners, bg.intersects path (bg.correctRing inner) = false := by
  unfold isPathTouchesBarriers
  simp only [mkLevelGeometry]
  by_cases hcov : ∃ poly ∈ area, bg.coveredBy path poly.outer = true
  · have hany : area.any (fun zone => bg.coveredBy path zone.outer) = true := by
      rw [List.any_eq_true]; exact hcov
    simp only [hany, if_true, hcov, true_and]
    rw [List.any_eq_false]
    constructor
    · intro h poly hp inner hi
      by_contra hcon
      rw [Bool.not_eq_false] at hcon
      have hmem : bg.correctRing inner ∈ (area.flatMap Polygon.inners).map bg.correctRing :=
        List.mem_map.mpr ⟨inner, List.mem_flatMap.mpr ⟨poly, hp, hi⟩, rfl⟩
      obtain ⟨i, hi'⟩ := List.mem_iff_getElem?.mp hmem
      have hq : i ∈ bg.rtreeQuery (((area.flatMap Polygon.inners).map bg.correctRing).map bg.envelope) path := by
        rw [hbg.query]
        exact ⟨bg.envelope (bg.correctRing inner), by rw [List.getElem?_map, hi']; rfl, hbg.envelope _ _ hcon⟩
      have := h i hq
      rw [hi'] at this
      exact this hcon
    · intro h i _
      cases hg : ((area.flatMap Polygon.inners).map bg.correctRing)[i]? with
      | none => simp
      | some r =>
        have hmem := List.mem_of_getElem? hg
        obtain ⟨inner, hin, rfl⟩ := List.mem_map.mp hmem
        obtain ⟨poly, hp, hi⟩ := List.mem_flatMap.mp hin
        simp only
        rw [h poly hp inner hi]; simp
  · have hany : ¬ area.any (fun zone => bg.coveredBy path zone.outer) = true := by
      rw [List.any_eq_true]; exact hcov
    simp [hany, hcov]

/-- **C72.** Every index answered by the tree names a barrier, so the unchecked access
`mInnerBarriers[boxIdxPair.second]` is in range. -/
theorem C72_index_in_range (bg : BoostGeometry) (hbg : bg.Lawful) (area : List Polygon) (box : Box)
    (path : List XYPoint) (i : ℕ)
    (h : i ∈ bg.rtreeQuery ((mkLevelGeometry bg area box).innerBarriers.map bg.envelope) path) :
    i < (mkLevelGeometry bg area box).innerBarriers.length := by
  obtain ⟨b, hb, -⟩ := (hbg.query _ _ _).mp h
  have := (List.getElem?_eq_some_iff.mp hb).1
  simpa using this

example : trivialGeometry.Lawful ∧ isPathTouchesBarriers trivialGeometry
    (mkLevelGeometry trivialGeometry [⟨[⟨0, 0⟩, ⟨1, 0⟩, ⟨1, 1⟩], [[⟨0, 0⟩]]⟩] ⟨⟨0, 0⟩, ⟨1, 1⟩⟩) [⟨0, 0⟩, ⟨1, 1⟩] = false := by
  constructor
  · constructor
    · intro boxes path i
      simp [trivialGeometry, ← Option.isSome_iff_exists]
    · intro _ _ _; rfl
  · simp [isPathTouchesBarriers, mkLevelGeometry, trivialGeometry]

/-- **C73.** The local bounding box of a level starts at the origin and contains the local image of
every geographic point of the level's box, whichever corners the box was given by (levels spanning
at most 180 degrees of longitude, off the poles). -/
theorem C73_local_box (bg : BoostGeometry) (g : GeoLevel) (p : GeoPoint)
    (hspan : |g.geometry.boundingBox.maxCorner.y - g.geometry.boundingBox.minCorner.y| ≤ 180)
    (hcos : 0 ≤ Real.cos (Geo.degToRad (getBinding g).latitude))
    (hp : g.geometry.boundingBox.ContainsGeo p) :
    (localGeometry bg (getBinding g) g.geometry).boundingBox.minCorner = ⟨0, 0⟩ ∧
    (localGeometry bg (getBinding g) g.geometry).boundingBox.Contains (Geo.gpsToLocal p (getBinding g)) := by
  obtain ⟨h1, h2, h3, h4⟩ := hp
  have hL : 0 ≤ Geo.latitudeCircumference (getBinding g) := by
    unfold Geo.latitudeCircumference Geo.equatorCircumference; positivity
  set b := g.geometry.boundingBox with hb
  set S := Geo.latitudeCircumference (getBinding g) / 360 with hS
  have hS0 : 0 ≤ S := by positivity
  have hmm := max_sub_min_eq_abs b.minCorner.y b.maxCorner.y
  rw [hb] at hmm
  have norm : ∀ lon, min b.minCorner.y b.maxCorner.y ≤ lon → lon ≤ max b.minCorner.y b.maxCorner.y →
      Geo.normalizeLongitude (lon - min b.minCorner.y b.maxCorner.y) =
        lon - min b.minCorner.y b.maxCorner.y := by
    intro lon hl hu
    apply Geo.C03_fixes_valid
    constructor <;> linarith
  have hgl : ∀ lat lon, min b.minCorner.y b.maxCorner.y ≤ lon → lon ≤ max b.minCorner.y b.maxCorner.y →
      Geo.gpsToLocal ⟨lat, lon⟩ (getBinding g) =
        ⟨(lon - min b.minCorner.y b.maxCorner.y) * S,
         (lat - min b.minCorner.x b.maxCorner.x) * (40008000 / 360)⟩ := by
    intro lat lon hl hu
    have := norm lon hl hu
    simp only [Geo.gpsToLocal, ← hS, Geo.poleCircumference]
    rw [show (getBinding g).longitude = min b.minCorner.y b.maxCorner.y from rfl,
      show (getBinding g).latitude = min b.minCorner.x b.maxCorner.x from rfl, this]
  have hbox : (localGeometry bg (getBinding g) g.geometry).boundingBox =
      correctBox (localBox (getBinding g) b) := rfl
  rw [hbox]
  have hp' : Geo.gpsToLocal p (getBinding g) = _ := hgl p.latitude p.longitude h3 h4
  rw [hp']
  unfold localBox correctBox Box.Contains
  rw [hgl _ _ (min_le_left _ _) (le_max_left _ _), hgl _ _ (min_le_right _ _) (le_max_right _ _)]
  simp only
  have hK : (0 : ℝ) ≤ 40008000 / 360 := by norm_num
  rw [← min_mul_of_nonneg _ _ hS0, ← max_mul_of_nonneg _ _ hS0, ← min_mul_of_nonneg _ _ hK,
    ← max_mul_of_nonneg _ _ hK, min_sub_sub_right, max_sub_sub_right, min_sub_sub_right, max_sub_sub_right]
  refine ⟨by simp, ?_, ?_, ?_, ?_⟩
  · apply mul_le_mul_of_nonneg_right _ hS0; linarith
  · apply mul_le_mul_of_nonneg_right _ hS0; linarith
  · apply mul_le_mul_of_nonneg_right _ hK; linarith
  · apply mul_le_mul_of_nonneg_right _ hK; linarith

example : |sampleGeoLevel.geometry.boundingBox.maxCorner.y - sampleGeoLevel.geometry.boundingBox.minCorner.y| ≤ 180 ∧
    0 ≤ Real.cos (Geo.degToRad (getBinding sampleGeoLevel).latitude) ∧
    sampleGeoLevel.geometry.boundingBox.ContainsGeo ⟨60.5, 31⟩ := by
  have h60 : (getBinding sampleGeoLevel).latitude = 60 := by
    simp [getBinding, correctBox, sampleGeoLevel]; norm_num
  refine ⟨by simp [sampleGeoLevel]; norm_num, ?_, ?_⟩
  · rw [h60]
    have : Geo.degToRad 60 = Real.pi / 3 := by unfold Geo.degToRad; ring
    rw [this, Real.cos_pi_div_three]; norm_num
  · unfold Box.ContainsGeo sampleGeoLevel; norm_num

/-- **C11, C12.** `addGeoLevel` does not throw on a level whose graph was built through the API, and
the added level is found under its id (unless an earlier level took the id), with each transmitter at
the converted position and altitude offset. -/
theorem C12_addGeoLevel (bg : BoostGeometry) (ls : List Level) (g : GeoLevel)
    (ops : List (NavGraph.Op GeoPoint)) (hg : g.graph = NavGraph.run ops) :
    ∃ l, addGeoLevel bg (collect ls) g = .ok (collect (ls ++ [l])) ∧ l.id = g.id ∧
      l.bindingPoint = getBinding g ∧ l.graph.edges = g.graph.edges ∧
      (∀ tx, l.transmitter tx = (g.transmitters.find? (fun t => t.id == tx)).map (fun t =>
        ⟨t.id, ⟨(Geo.gpsToLocal ⟨t.point.latitude, t.point.longitude⟩ (getBinding g)).x,
          (Geo.gpsToLocal ⟨t.point.latitude, t.point.longitude⟩ (getBinding g)).y,
          g.altitude + t.point.altitude⟩, t.pathloss, t.type⟩)) ∧
      (∀ id, l.radiomap.getReferencePoint id = (g.referencePoints.find? (fun r => r.id == id)).map (fun r =>
        ⟨r.id, Geo.gpsToLocal r.point (getBinding g), r.fingerprints⟩)) := by
  unfold addGeoLevel
  simp only [hg, NavGraph.C11_convert]
  refine ⟨_, by rw [collect_snoc], rfl, rfl, rfl, ?_, ?_⟩
  · intro tx
    rw [C14_first_transmitter_wins]
    simp only [Level.transmitter, StdMap.find?_nil, Option.none_or, localTransmitters, List.find?_map]
    rfl
  · intro id
    have := (C15_radiomap (localRefPoints (getBinding g) g.referencePoints) id).2.2
    refine Eq.trans this ?_
    simp only [localRefPoints, List.find?_map]
    rfl

/-- The local image of a geographic ring: each vertex (latitude, longitude) on its own. -/
noncomputable def imageRing (binding : GeoPoint) (r : Ring) : Ring :=
  r.map (fun v => Geo.gpsToLocal { latitude := v.x, longitude := v.y } binding)

/-- **C72, for a level given in geographic coordinates.** After `addGeoLevel` a path in local coordinates touches no barrier iff
the image of an outer ring covers it and it meets the image of no inner ring (up to the corrections of orientation and closure
that boost makes). -/
theorem C72_geo_level (bg : BoostGeometry) (hbg : bg.Lawful) (c c' : LevelCollector) (g : GeoLevel)
    (h : addGeoLevel bg c g = .ok c') (path : List XYPoint) :
    ∃ l, c'.levels = c.levels ++ [l] ∧ l.id = g.id ∧ (isPathTouchesBarriers bg l.geometry path = false ↔
      (∃ poly ∈ g.geometry.allowedArea, bg.coveredBy path (bg.correctOuter (imageRing (getBinding g) poly.outer)) = true) ∧
      ∀ poly ∈ g.geometry.allowedArea, ∀ inner ∈ poly.inners,
        bg.intersects path (bg.correctRing (bg.correctInner (imageRing (getBinding g) inner))) = false) := by
  unfold addGeoLevel at h
  dsimp only at h
  split at h
  · cases h
  · cases h
    refine ⟨_, rfl, rfl, ?_⟩
    have hg : ∀ (l : Level) (t : List (Transmitter XYZPoint)), (l.addTransmitters t).geometry = l.geometry := fun _ _ => rfl
    rw [hg]
    unfold localGeometry
    rw [C72_barriers bg hbg]
    constructor
    · rintro ⟨⟨poly, hp, hc⟩, hi⟩
      obtain ⟨p0, hp0, rfl⟩ := List.mem_map.mp hp
      refine ⟨⟨p0, hp0, hc⟩, ?_⟩
      intro q hq inner hin
      exact hi _ (List.mem_map.mpr ⟨q, hq, rfl⟩) _ (List.mem_map.mpr ⟨inner, hin, rfl⟩)
    · rintro ⟨⟨p0, hp0, hc⟩, hi⟩
      refine ⟨⟨_, List.mem_map.mpr ⟨p0, hp0, rfl⟩, hc⟩, ?_⟩
      intro poly hp inner hin
      obtain ⟨q, hq, rfl⟩ := List.mem_map.mp hp
      obtain ⟨r, hr, rfl⟩ := List.mem_map.mp hin
      exact hi q hq r hr

end Verif.Levels
