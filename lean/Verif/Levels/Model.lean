import Verif.NavGraph.Model
import Verif.Common

/-!
# Model of `src/level.cpp`, `src/radiomap.cpp`, `src/level_geometry.cpp`, `src/level_collector.cpp`
-/

namespace Verif.Levels

open Verif.Geo (XYPoint GeoPoint)
open Verif.NavGraph (Graph)

/-- `transmitter.h` 12-16: path loss parameters. -/
structure PathlossModel where
  A : ℝ
  B : ℝ
  power : ℝ

/-- `transmitter.h` 24: `enum class TransmitterType`. -/
inductive TransmitterType where
  | WIFI | BEACON | BLUETOOTH | UNKNOWN | EDDYSTONE | LOCATOR
  deriving DecidableEq

/-- `point.h` `XYZPoint`. -/
structure XYZPoint where
  x : ℝ
  y : ℝ
  z : ℝ

/-- `point.h` 29-46: `GeoPoint3D`. -/
structure GeoPoint3D where
  latitude : ℝ
  longitude : ℝ
  altitude : ℝ

/-- `transmitter.h` 28-47: `struct Transmitter`. Identifiers are strings (`declare_identifier.h`). -/
structure Transmitter (P : Type) where
  id : String
  point : P
  pathloss : PathlossModel
  type : TransmitterType

/-- `reference_point.h` 18-26: `struct SignalStatistics` (declared, never defined `addMeasurement` omitted). -/
structure SignalStatistics where
  type : TransmitterType
  mean : ℝ
  variance : ℝ
  nMeasurements : ℕ

/-- `reference_point.h` 30-45: `struct ReferencePoint`; the `std::map` of fingerprints is a list
ascending in the transmitter id. -/
structure ReferencePoint (P : Type) where
  id : String
  point : P
  fingerprints : List (String × SignalStatistics)

/-- `radiomap.h` 28-30: `class Radiomap`. -/
structure Radiomap where
  referencePoints : List (ReferencePoint XYPoint)
  index : List (String × ℕ)

/-- `src/radiomap.cpp` 15-16: the index loop, `i` counting from `n`. -/
def buildIndex (n : ℕ) (m : List (String × ℕ)) : List (ReferencePoint XYPoint) → List (String × ℕ)
  | [] => m
  | rp :: rps => buildIndex (n + 1) (StdMap.insert m rp.id n) rps

/-- `src/radiomap.cpp` 12-17: the constructor. -/
def mkRadiomap (rps : List (ReferencePoint XYPoint)) : Radiomap := ⟨rps, buildIndex 0 [] rps⟩

/-- `src/radiomap.cpp` 24-27. -/
def Radiomap.hasReferencePoint (r : Radiomap) (id : String) : Bool := (StdMap.find? r.index id).isSome

/-- `src/radiomap.cpp` 29-32; `none`: one of the `at` calls throws. -/
def Radiomap.getReferencePoint (r : Radiomap) (id : String) : Option (ReferencePoint XYPoint) :=
  match StdMap.find? r.index id with
  | none => none
  | some i => r.referencePoints[i]?

/-- A ring of a boost polygon. -/
abbrev Ring := List XYPoint

/-- A boost polygon: outer ring and inner rings. -/
structure Polygon where
  outer : Ring
  inners : List Ring

/-- A boost box. -/
structure Box where
  minCorner : XYPoint
  maxCorner : XYPoint

/-- `level_geometry.h` 28-32: `class LevelGeometry`, without the r-tree (see `BoostGeometry`). -/
structure LevelGeometry where
  allowedArea : List Polygon
  boundingBox : Box
  innerBarriers : List Ring

/-- The boost::geometry algorithms used by the code, as parameters. -/
structure BoostGeometry where
  /-- `boost::geometry::covered_by(linestring, ring)` -/
  coveredBy : List XYPoint → Ring → Bool
  /-- `boost::geometry::intersects(linestring, ring)` -/
  intersects : List XYPoint → Ring → Bool
  /-- `boost::geometry::correct(ring)` (orientation and closure) of an outer ring -/
  correctOuter : Ring → Ring
  /-- `boost::geometry::correct(ring)` of an inner ring inside a polygon -/
  correctInner : Ring → Ring
  /-- `boost::geometry::correct(ring)` of a stand-alone ring -/
  correctRing : Ring → Ring
  /-- `boost::geometry::return_envelope<Box>(ring)` -/
  envelope : Ring → Box
  /-- `boost::geometry::intersects(linestring, box)` -/
  boxIntersects : List XYPoint → Box → Bool
  /-- `rtree.query(intersects(path))`: the second components of the values returned for a tree
  built from these boxes numbered `0, 1, …` -/
  rtreeQuery : List Box → List XYPoint → List ℕ

/-- Documented behaviour of the boost algorithms the theorems rely on. -/
structure BoostGeometry.Lawful (bg : BoostGeometry) : Prop where
  /-- the tree answers exactly the boxes meeting the path, in any order -/
  query : ∀ boxes path i, i ∈ bg.rtreeQuery boxes path ↔
    ∃ b, boxes[i]? = some b ∧ bg.boxIntersects path b = true
  /-- a path meeting a ring meets the ring's envelope -/
  envelope : ∀ path ring, bg.intersects path ring = true → bg.boxIntersects path (bg.envelope ring) = true

/-- `src/level_geometry.cpp` 8-23: the constructor. The tree holds the envelopes of the barriers. -/
def mkLevelGeometry (bg : BoostGeometry) (area : List Polygon) (box : Box) : LevelGeometry where
  allowedArea := area
  boundingBox := box
  innerBarriers := (area.flatMap Polygon.inners).map bg.correctRing

/-- `src/level_geometry.cpp` 25-44. -/
def isPathTouchesBarriers (bg : BoostGeometry) (g : LevelGeometry) (path : List XYPoint) : Bool :=
  if g.allowedArea.any (fun zone => bg.coveredBy path zone.outer) then
    (bg.rtreeQuery (g.innerBarriers.map bg.envelope) path).any (fun i =>
      match g.innerBarriers[i]? with
      | some r => bg.intersects path r
      | none => false)  -- unreachable: the tree only holds valid indices (C72)
  else true

/-- `level.h` 51-58: `class Level`. -/
structure Level where
  id : String
  bindingPoint : GeoPoint
  transmitters : List (String × Transmitter XYZPoint)
  radiomap : Radiomap
  geometry : LevelGeometry
  graph : Graph XYPoint

/-- `src/level.cpp` 37-40. -/
def Level.containsTransmitter (l : Level) (tx : String) : Bool := (StdMap.find? l.transmitters tx).isSome

/-- `src/level.cpp` 42-45; `none`: `at` throws. -/
def Level.transmitter (l : Level) (tx : String) : Option (Transmitter XYZPoint) :=
  StdMap.find? l.transmitters tx

/-- `src/level.cpp` 47-51: `addTransmitters`. -/
def Level.addTransmitters (l : Level) (txs : List (Transmitter XYZPoint)) : Level :=
  { l with transmitters := txs.foldl (fun m tx => StdMap.insert m tx.id tx) l.transmitters }

/-- `src/level.cpp` 69-80: `getLevelRadioMeasurements`; `idOf` reads the transmitter id. -/
def getLevelRadioMeasurements {M : Type} (idOf : M → String) (l : Level) (msr : List M) : List M :=
  msr.filter (fun m => l.containsTransmitter (idOf m))

/-- `level_collector.h`: `class LevelCollector`. -/
structure LevelCollector where
  levels : List Level
  indices : List (String × ℕ)

/-- `src/level_collector.cpp` 121-124: an empty collector. -/
def emptyCollector : LevelCollector := ⟨[], []⟩

/-- `src/level_collector.cpp` 126-137. -/
def findLevelByTransmitterId (c : LevelCollector) (tx : String) : Option String :=
  (c.levels.find? (fun l => l.containsTransmitter tx)).map Level.id

/-- `src/level_collector.cpp` 144-147. -/
def hasLevel (c : LevelCollector) (id : String) : Bool := (StdMap.find? c.indices id).isSome

/-- `src/level_collector.cpp` 149-152; `none`: one of the `at` calls throws. -/
def level (c : LevelCollector) (id : String) : Option Level :=
  match StdMap.find? c.indices id with
  | none => none
  | some i => c.levels[i]?

/-- `src/level_collector.cpp` 175-176: register a level. -/
def addLevel (c : LevelCollector) (l : Level) : LevelCollector :=
  ⟨c.levels ++ [l], StdMap.insert c.indices l.id ((c.levels ++ [l]).length - 1)⟩

/-- `geolevel.h` 25-33: `struct GeoLevel`. -/
structure GeoLevel where
  id : String
  transmitters : List (Transmitter GeoPoint3D)
  referencePoints : List (ReferencePoint GeoPoint)
  geometry : LevelGeometry
  graph : Graph GeoPoint
  altitude : ℝ

/-- `boost::geometry::correct(box)`: swap the corners per axis where needed. -/
noncomputable def correctBox (b : Box) : Box where
  minCorner := ⟨min b.minCorner.x b.maxCorner.x, min b.minCorner.y b.maxCorner.y⟩
  maxCorner := ⟨max b.minCorner.x b.maxCorner.x, max b.minCorner.y b.maxCorner.y⟩

/-- `src/level_collector.cpp` 154-161: `getBinding` (`x` is the latitude, `y` the longitude). -/
noncomputable def getBinding (g : GeoLevel) : GeoPoint :=
  let b := correctBox g.geometry.boundingBox
  ⟨b.minCorner.x, b.minCorner.y⟩

/-- `src/level_collector.cpp` 14-30. -/
noncomputable def localTransmitters (binding : GeoPoint) (txs : List (Transmitter GeoPoint3D))
    (altitude : ℝ) : List (Transmitter XYZPoint) :=
  txs.map (fun t =>
    let p := Geo.gpsToLocal ⟨t.point.latitude, t.point.longitude⟩ binding
    ⟨t.id, ⟨p.x, p.y, altitude + t.point.altitude⟩, t.pathloss, t.type⟩)

/-- `src/level_collector.cpp` 32-45. -/
noncomputable def localRefPoints (binding : GeoPoint) (rps : List (ReferencePoint GeoPoint)) :
    List (ReferencePoint XYPoint) :=
  rps.map (fun rp => ⟨rp.id, Geo.gpsToLocal rp.point binding, rp.fingerprints⟩)

/-- `src/level_collector.cpp` 52-56 and 60-64: convert the points of a ring. -/
noncomputable def localRing (binding : GeoPoint) (r : Ring) : Ring :=
  r.map (fun p => Geo.gpsToLocal ⟨p.x, p.y⟩ binding)

/-- `src/level_collector.cpp` 47-68. -/
noncomputable def localPolygon (bg : BoostGeometry) (binding : GeoPoint) (p : Polygon) : Polygon :=
  ⟨bg.correctOuter (localRing binding p.outer), p.inners.map (fun r => bg.correctInner (localRing binding r))⟩

/-- `src/level_collector.cpp` 70-75. -/
noncomputable def localBox (binding : GeoPoint) (b : Box) : Box :=
  ⟨Geo.gpsToLocal ⟨b.minCorner.x, b.minCorner.y⟩ binding, Geo.gpsToLocal ⟨b.maxCorner.x, b.maxCorner.y⟩ binding⟩

/-- `src/level_collector.cpp` 77-92.  The second `correct` of the whole area (line 86) acts on
already corrected polygons and is left out. -/
noncomputable def localGeometry (bg : BoostGeometry) (binding : GeoPoint) (g : LevelGeometry) : LevelGeometry :=
  mkLevelGeometry bg (g.allowedArea.map (localPolygon bg binding)) (correctBox (localBox binding g.boundingBox))

/-- `src/level_collector.cpp` 163-177: `addGeoLevel`; the graph conversion may throw. -/
noncomputable def addGeoLevel (bg : BoostGeometry) (c : LevelCollector) (g : GeoLevel) :
    Except String LevelCollector :=
  let binding := getBinding g
  match NavGraph.convertGraph (fun p => Geo.gpsToLocal p binding) g.graph with
  | .error e => .error e
  | .ok graph =>
    let l : Level := ⟨g.id, binding, [], mkRadiomap (localRefPoints binding g.referencePoints),
      localGeometry bg binding g.geometry, graph⟩
    .ok (addLevel c (l.addTransmitters (localTransmitters binding g.transmitters g.altitude)))

end Verif.Levels
