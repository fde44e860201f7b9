import Verif.East.Spec
import Verif.Nav.Trace

/-!
# Lemmas for C142
-/

namespace Verif.East

open Verif.Levels Verif.Nav
open Verif.Geo (XYPoint GeoPoint)
open Verif.Knn (Result)

/-! ## Coordinates -/

theorem local_east (δ : ℝ) (p bind : GeoPoint) : Geo.gpsToLocal (eastPoint δ p) (eastPoint δ bind) = Geo.gpsToLocal p bind := by
  unfold Geo.gpsToLocal eastPoint Geo.latitudeCircumference
  dsimp only
  rw [add_sub_add_right_eq_sub]

theorem normalize_turn (x : ℝ) : ∃ k : ℤ, Geo.normalizeLongitude x = x + 360 * k := by
  unfold Geo.normalizeLongitude
  split_ifs
  · exact ⟨-1, by push_cast; ring⟩
  · exact ⟨1, by push_cast; ring⟩
  · exact ⟨0, by simp⟩

theorem gps_east (δ : ℝ) (q : XYPoint) (bind : GeoPoint) :
    (Geo.localToGps q (eastPoint δ bind)).latitude = (Geo.localToGps q bind).latitude ∧
    ∃ k : ℤ, (Geo.localToGps q (eastPoint δ bind)).longitude = (Geo.localToGps q bind).longitude + δ + 360 * k := by
  refine ⟨rfl, ?_⟩
  unfold Geo.localToGps eastPoint Geo.latitudeCircumference
  dsimp only
  obtain ⟨a, ha⟩ := normalize_turn ((q.x * 360) ÷ (Geo.equatorCircumference * Real.cos (Geo.degToRad bind.latitude)) + (bind.longitude + δ))
  obtain ⟨b, hb⟩ := normalize_turn ((q.x * 360) ÷ (Geo.equatorCircumference * Real.cos (Geo.degToRad bind.latitude)) + bind.longitude)
  refine ⟨a - b, ?_⟩
  rw [ha, hb]
  push_cast
  ring

/-! ## The map -/

theorem ring_east (δ : ℝ) (bind : GeoPoint) (r : Ring) : localRing (eastPoint δ bind) (r.map (eastXY δ)) = localRing bind r := by
  unfold localRing
  rw [List.map_map]
  refine List.map_congr_left (fun p _ => ?_)
  exact local_east δ ⟨p.x, p.y⟩ bind

theorem polygon_east (bg : BoostGeometry) (δ : ℝ) (bind : GeoPoint) (p : Polygon) :
    localPolygon bg (eastPoint δ bind) (eastPolygon δ p) = localPolygon bg bind p := by
  unfold localPolygon eastPolygon
  dsimp only
  rw [ring_east, List.map_map]
  congr 1
  refine List.map_congr_left (fun r _ => ?_)
  simp only [Function.comp, ring_east]

theorem binding_east (δ : ℝ) (g : GeoLevel) : getBinding (eastFloor δ g) = eastPoint δ (getBinding g) := by
  unfold getBinding eastFloor eastBox eastPoint eastXY correctBox
  simp only [GeoPoint.mk.injEq, true_and]
  exact min_add_add_right _ _ _

theorem geometry_east (bg : BoostGeometry) (δ : ℝ) (bind : GeoPoint) (g : GeoLevel) :
    localGeometry bg (eastPoint δ bind) (eastFloor δ g).geometry = localGeometry bg bind g.geometry := by
  unfold localGeometry
  have h1 : (eastFloor δ g).geometry.allowedArea.map (localPolygon bg (eastPoint δ bind)) = g.geometry.allowedArea.map (localPolygon bg bind) := by
    change (g.geometry.allowedArea.map (eastPolygon δ)).map _ = _
    rw [List.map_map]
    exact List.map_congr_left (fun p _ => polygon_east bg δ bind p)
  have h2 : localBox (eastPoint δ bind) (eastFloor δ g).geometry.boundingBox = localBox bind g.geometry.boundingBox := by
    unfold localBox
    have e : ∀ p : XYPoint, Geo.gpsToLocal ⟨(eastXY δ p).x, (eastXY δ p).y⟩ (eastPoint δ bind) = Geo.gpsToLocal ⟨p.x, p.y⟩ bind :=
      fun p => local_east δ ⟨p.x, p.y⟩ bind
    change (⟨Geo.gpsToLocal ⟨(eastXY δ g.geometry.boundingBox.minCorner).x, (eastXY δ g.geometry.boundingBox.minCorner).y⟩ _,
      Geo.gpsToLocal ⟨(eastXY δ g.geometry.boundingBox.maxCorner).x, (eastXY δ g.geometry.boundingBox.maxCorner).y⟩ _⟩ : Box) = _
    rw [e, e]
  rw [h1, h2]

theorem transmitters_east (δ : ℝ) (bind : GeoPoint) (g : GeoLevel) :
    localTransmitters (eastPoint δ bind) (eastFloor δ g).transmitters (eastFloor δ g).altitude =
      localTransmitters bind g.transmitters g.altitude := by
  unfold localTransmitters eastFloor
  dsimp only
  rw [List.map_map]
  refine List.map_congr_left (fun t _ => ?_)
  have := local_east δ ⟨t.point.latitude, t.point.longitude⟩ bind
  unfold eastPoint at this
  dsimp only [Function.comp] at this ⊢
  unfold eastPoint
  rw [this]

theorem refPoints_east (δ : ℝ) (bind : GeoPoint) (g : GeoLevel) :
    localRefPoints (eastPoint δ bind) (eastFloor δ g).referencePoints = localRefPoints bind g.referencePoints := by
  unfold localRefPoints eastFloor
  dsimp only
  rw [List.map_map]
  refine List.map_congr_left (fun t _ => ?_)
  dsimp only [Function.comp]
  rw [local_east]

theorem vertices_east {P Q : Type} (f f' : P → Q) (e : P → P) (h : ∀ p, f' (e p) = f p) (vs : List (NavGraph.Vertex P)) :
    NavGraph.copyVertices f' (vs.map fun v => { v with point := e v.point }) = NavGraph.copyVertices f vs := by
  unfold NavGraph.copyVertices
  rw [List.foldl_map]
  simp only [h]

theorem edges_east {P Q : Type} (g g' : NavGraph.Graph P) (e : P → P)
    (h : g'.vertices = g.vertices.map fun v => { v with point := e v.point }) (m : List (Int × Int)) (r : NavGraph.Graph Q)
    (es : List (Int ×ₗ Int)) : NavGraph.copyEdges g' m r es = NavGraph.copyEdges g m r es := by
  induction es generalizing r with
  | nil => rfl
  | cons x es ih =>
    have hv : ∀ i, NavGraph.getVertex g' i = (NavGraph.getVertex g i).map fun v => { v with point := e v.point } := by
      intro i
      unfold NavGraph.getVertex
      split_ifs
      · rw [h, List.getElem?_map]
      · rfl
    unfold NavGraph.copyEdges
    rw [hv, hv]
    cases NavGraph.getVertex g (ofLex x).1 with
    | none => rfl
    | some u =>
      cases NavGraph.getVertex g (ofLex x).2 with
      | none => rfl
      | some v =>
        dsimp only [Option.map]
        cases NavGraph.addEdge r (NavGraph.mapGet m u.id) (NavGraph.mapGet m v.id) with
        | error s => rfl
        | ok r' => exact ih r'

theorem graph_east (δ : ℝ) (bind : GeoPoint) (g : GeoLevel) :
    NavGraph.convertGraph (fun p => Geo.gpsToLocal p (eastPoint δ bind)) (eastFloor δ g).graph =
      NavGraph.convertGraph (fun p => Geo.gpsToLocal p bind) g.graph := by
  unfold NavGraph.convertGraph
  dsimp only
  rw [edges_east g.graph (eastFloor δ g).graph (eastPoint δ) rfl]
  change NavGraph.copyEdges _ (NavGraph.copyVertices _ (g.graph.vertices.map fun v => { v with point := eastPoint δ v.point })).2
    (NavGraph.copyVertices _ (g.graph.vertices.map fun v => { v with point := eastPoint δ v.point })).1 g.graph.edges = _
  rw [vertices_east _ _ _ (fun p => local_east δ p bind)]

theorem addLevel_east (δ : ℝ) (c : LevelCollector) (l : Level) : addLevel (eastMap δ c) (eastLevel δ l) = eastMap δ (addLevel c l) := by
  unfold addLevel eastMap
  simp [eastLevel]

theorem collect_east (δ : ℝ) (ls : List Level) : collect (ls.map (eastLevel δ)) = eastMap δ (collect ls) := by
  induction ls using List.reverseRecOn with
  | nil => rfl
  | append_singleton ls l ih =>
    rw [List.map_append, List.map_cons, List.map_nil, collect_snoc, collect_snoc, ih, addLevel_east]

/-! ## Lookups -/

theorem find_east (δ : ℝ) (c : LevelCollector) (tx : String) : findLevelByTransmitterId (eastMap δ c) tx = findLevelByTransmitterId c tx := by
  unfold findLevelByTransmitterId eastMap
  rw [List.find?_map, Option.map_map]
  rfl

theorem has_east (δ : ℝ) (c : LevelCollector) (id : String) : hasLevel (eastMap δ c) id = hasLevel c id := rfl

theorem level_east (δ : ℝ) (c : LevelCollector) (id : String) : level (eastMap δ c) id = (level c id).map (eastLevel δ) := by
  unfold level
  change (match StdMap.find? c.indices id with | none => none | some i => (c.levels.map (eastLevel δ))[i]?) = _
  cases StdMap.find? c.indices id with
  | none => rfl
  | some i => simp

/-! ## Radio -/

theorem supported_east (δ : ℝ) (c : LevelCollector) (cs : CommonSettings) (e : RadioData) :
    Radio.getValidSignalEntry (Radio.mkCfg (eastMap δ c) cs) e = Radio.getValidSignalEntry (Radio.mkCfg c cs) e := by
  have hs : ∀ tx, Radio.isTransmitterSupported (Radio.mkCfg (eastMap δ c) cs) tx = Radio.isTransmitterSupported (Radio.mkCfg c cs) tx := by
    intro tx
    unfold Radio.isTransmitterSupported
    rw [show (Radio.mkCfg (eastMap δ c) cs).levelIndex = eastMap δ c from rfl, show (Radio.mkCfg c cs).levelIndex = c from rfl, find_east]
    cases findLevelByTransmitterId c tx with
    | none => rfl
    | some id =>
      simp only [level_east, has_east]
      cases level c id <;> rfl
  unfold Radio.getValidSignalEntry
  rw [hs]
  simp only [Radio.mkCfg, find_east]
  rfl

/-- The state of the radio part; the stored sensor message may be a satellite fix. -/
def eastPre (δ : ℝ) (s : Radio.State) : Radio.State := { s with sensor := ⟨eastSensor δ s.sensor.data, s.sensor.ts⟩ }

theorem update_east (δ : ℝ) (c : LevelCollector) (cs : CommonSettings) (s : Radio.State) (m : Measurement) :
    Radio.updateMeasurements (Radio.mkCfg (eastMap δ c) cs) (eastPre δ s) (eastMsg δ m) =
      eastPre δ (Radio.updateMeasurements (Radio.mkCfg c cs) s m) := by
  obtain ⟨d, ts⟩ := m
  cases d with
  | radio d =>
    unfold Radio.updateMeasurements eastMsg
    dsimp only
    rw [supported_east]
    cases Radio.getValidSignalEntry (Radio.mkCfg c cs) d <;> rfl
  | sensor d => rfl
  | nmea d => rfl

theorem extract_east (δ : ℝ) (sorts : Radio.Sorts) (c : LevelCollector) (cs : CommonSettings) (s : Radio.State) (t : Int) :
    Radio.extractRadioMeasurements sorts (Radio.mkCfg (eastMap δ c) cs) (eastPre δ s) t =
      ((Radio.extractRadioMeasurements sorts (Radio.mkCfg c cs) s t).1,
        eastPre δ (Radio.extractRadioMeasurements sorts (Radio.mkCfg c cs) s t).2) := by
  have hd : Radio.withDistance (Radio.mkCfg (eastMap δ c) cs) = Radio.withDistance (Radio.mkCfg c cs) := by
    funext e
    unfold Radio.withDistance
    simp only [Radio.mkCfg, find_east, level_east]
    cases findLevelByTransmitterId c e.id with
    | none => rfl
    | some id =>
      dsimp only
      cases level c id <;> rfl
  unfold Radio.extractRadioMeasurements
  rw [hd]
  rfl

/-! ## Sensors -/

theorem displacement_east (δ : ℝ) (c : Fusion.FusionConfig) (s : Fusion.FusionState) (m : SensorMeasurement) (t : Int) :
    Fusion.calculateDisplacement c s ⟨eastSensor δ m.data, m.ts⟩ t = Fusion.calculateDisplacement c s m t := by
  have h1 : ∀ s : Pedo.PedoState, Pedo.update s ⟨eastSensor δ m.data, m.ts⟩ = Pedo.update s m := by
    intro s
    obtain ⟨⟨t, v⟩, ts⟩ := m
    cases t <;> rfl
  have h2 : ∀ c s, Fusion.cfUpdate c s ⟨eastSensor δ m.data, m.ts⟩ = Fusion.cfUpdate c s m := by
    intro c s
    obtain ⟨⟨t, v⟩, ts⟩ := m
    cases t <;> rfl
  unfold Fusion.calculateDisplacement
  rw [h1, h2]

theorem floor_east (δ : ℝ) (b : Bool) (e : LevelEst.Estimator) (l : String) (m : SensorMeasurement) :
    LevelEst.calculateLevel b e l ⟨eastSensor δ m.data, m.ts⟩ = LevelEst.calculateLevel b e l m := by
  have e : ∀ b, LevelEst.updateBuffers b ⟨eastSensor δ m.data, m.ts⟩ = LevelEst.updateBuffers b m := by
    intro b
    obtain ⟨⟨t, v⟩, ts⟩ := m
    cases t <;> rfl
  unfold LevelEst.calculateLevel LevelEst.checkLevelChange
  simp only [e]

/-! ## Satellites -/

theorem outdoorLevels_east (δ : ℝ) (s : CommonSettings) (st : Estim.OutdoorState) (g : Estim.GpsPosition) (sats : Int) (ls : List Level) :
    Estim.outdoorLevels s st { g with longitude := g.longitude + δ } sats (ls.map (eastLevel δ)) = Estim.outdoorLevels s st g sats ls := by
  induction ls with
  | nil => rfl
  | cons l ls ih =>
    have hp : Geo.gpsToLocal ⟨g.latitude, g.longitude + δ⟩ (eastLevel δ l).bindingPoint = Geo.gpsToLocal ⟨g.latitude, g.longitude⟩ l.bindingPoint :=
      local_east δ ⟨g.latitude, g.longitude⟩ l.bindingPoint
    rw [List.map_cons]
    unfold Estim.outdoorLevels
    dsimp only
    rw [hp, ih]
    rfl

theorem outdoor_east (δ : ℝ) (s : CommonSettings) (c : LevelCollector) (st : Estim.OutdoorState) (ts : Int) (sensor : SensorMeasurement)
    (nmea : NmeaMeasurement) (flag : Bool) :
    Estim.outdoorPosition s (eastMap δ c) st ts ⟨eastSensor δ sensor.data, sensor.ts⟩ nmea flag =
      Estim.outdoorPosition s c st ts sensor nmea flag := by
  have hg : Estim.extractGpsPosition s ts ⟨eastSensor δ sensor.data, sensor.ts⟩ =
      (Estim.extractGpsPosition s ts sensor).map fun g => { g with longitude := g.longitude + δ } := by
    unfold Estim.extractGpsPosition eastSensor
    by_cases h : sensor.data.type = .LOCATION
    · simp [h]
    · simp [h]
  unfold Estim.outdoorPosition
  dsimp only
  rw [hg]
  cases Estim.extractGpsPosition s ts sensor with
  | none => rfl
  | some g =>
    dsimp only [Option.map]
    exact outdoorLevels_east δ s _ g _ c.levels

/-! ## Floors and places -/

theorem foldlM_east {β : Type} (δ : ℝ) (f f' : β → Level → Option β) (h : ∀ b l, f' b (eastLevel δ l) = f b l) (ls : List Level) (b : β) :
    (ls.map (eastLevel δ)).foldlM f' b = ls.foldlM f b := by
  induction ls generalizing b with
  | nil => rfl
  | cons l ls ih =>
    rw [List.map_cons, List.foldlM_cons, List.foldlM_cons, h]
    congr 1
    funext b'
    exact ih b'

theorem byTransmitters_east (δ : ℝ) (p : Bool) (c : LevelCollector) (radio : List RadioData) :
    LevelEst.detectByTransmitters p (eastMap δ c) radio = LevelEst.detectByTransmitters p c radio := by
  unfold LevelEst.detectByTransmitters
  congr 1
  exact foldlM_east δ _ _ (fun b l => rfl) c.levels _

theorem byRadiomap_east (δ : ℝ) (b : Bool) (maps : List (String × List Knn.Fingerprint)) (c : LevelCollector) (radio : List RadioData) :
    Knn.detectByRadiomap b maps (eastMap δ c) radio = Knn.detectByRadiomap b maps c radio := by
  unfold Knn.detectByRadiomap
  congr 1
  exact foldlM_east δ _ _ (fun b l => rfl) c.levels _

theorem maps_east (δ : ℝ) (c : LevelCollector) : Knn.getLevelsRadiomaps (eastMap δ c) = Knn.getLevelsRadiomaps c := by
  unfold Knn.getLevelsRadiomaps eastMap
  rw [List.foldl_map]
  rfl

theorem refs_east (δ : ℝ) (c : LevelCollector) : Knn.getLevelReferenceTransmittersMap (eastMap δ c) = Knn.getLevelReferenceTransmittersMap c := by
  unfold Knn.getLevelReferenceTransmittersMap eastMap
  rw [List.foldl_map]
  rfl

theorem triangles_east (δ : ℝ) (s : Triang.Sorts) (c : LevelCollector) : Knn.triangulate s (eastMap δ c) = Knn.triangulate s c := by
  unfold Knn.triangulate
  change Knn.triangulateFrom s (c.levels.map (eastLevel δ)) [] = _
  generalize ([] : List (String × List Knn.RpTriangle)) = m
  induction c.levels generalizing m with
  | nil => rfl
  | cons l ls ih =>
    rw [List.map_cons]
    unfold Knn.triangulateFrom
    dsimp only
    simp only [ih]
    rfl

theorem knn_east (δ : ℝ) (env : Env) (c : LevelCollector) (cs : CommonSettings) :
    Knn.mkCfg env.triSorts env.rpSort (eastMap δ c) cs = Knn.mkCfg env.triSorts env.rpSort c cs := by
  unfold Knn.mkCfg
  rw [maps_east, refs_east, triangles_east]

theorem params_east (δ : ℝ) (settings : List (String × Estim.LevelSettings)) (c : LevelCollector) :
    Estim.zoneParams settings (eastMap δ c) = Estim.zoneParams settings c := by
  unfold Estim.zoneParams
  exact foldlM_east δ _ _ (fun b l => rfl) c.levels _

theorem pushBad_east (δ : ℝ) (l : Level) (p : XYZPoint) (m : RadioData) (ms : List RadioData) :
    Trilat.pushBad (eastLevel δ l) p m ms = Trilat.pushBad l p m ms := by
  induction ms with
  | nil => rfl
  | cons a ms ih =>
    unfold Trilat.pushBad
    rw [ih]
    rfl

theorem badLoop_east (δ : ℝ) (l : Level) (all ms bad : List RadioData) :
    Trilat.badLoop (eastLevel δ l) all ms bad = Trilat.badLoop l all ms bad := by
  induction ms generalizing bad with
  | nil => rfl
  | cons a ms ih =>
    unfold Trilat.badLoop
    simp only [ih, pushBad_east]
    rfl

theorem altitudeSum_east (δ : ℝ) (l : Level) (x y : ℝ) (ms : List RadioData) (acc : Option ℝ × Bool) :
    Trilat.altitudeSum (eastLevel δ l) x y ms acc = Trilat.altitudeSum l x y ms acc := by
  induction ms generalizing acc with
  | nil => rfl
  | cons a ms ih =>
    unfold Trilat.altitudeSum
    simp only [ih]
    rfl

theorem altitude_east (δ : ℝ) (sort : List RadioData → List RadioData) (solve : List Trilat.Row → XYZPoint) (l : Level) (msr : List RadioData) :
    Trilat.calculateAltitude sort solve (eastLevel δ l) msr = Trilat.calculateAltitude sort solve l msr := by
  unfold Trilat.calculateAltitude Trilat.getIntersected
  simp only [badLoop_east, altitudeSum_east]
  rfl

theorem indoor_east (δ : ℝ) {c c' : Cfg} (h : c'.indoor = c.indoor) (p : Position) (l : Level) (ts : Int) (radio : List RadioData) :
    indoorPosition c' p (eastLevel δ l) ts radio = indoorPosition c p l ts radio := by
  unfold indoorPosition
  rw [h]
  rfl

end Verif.East
