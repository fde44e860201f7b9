import Verif.MapLoad.Model
import Verif.Levels.Model

/-!
# Model of `ParseGeojson` and of the feature parsers of `tools/verification/helpers.cpp`,
and of `src/barriers_geometry_builder.cpp`

A document is the list of its features; a feature holds what the code reads from it.  JSON type
errors and missing members (exceptions of nlohmann::json) are not modelled, except that an index
out of range (`at`) is.
-/

namespace Verif.MapLoad

open Verif.Geo (GeoPoint XYPoint)
open Verif.NavGraph (Graph)
open Verif.Knn (Result)
open Verif.Levels

/-- `helpers.cpp` 527-539: one entry of a reference point: the transmitter, its type and the pairs
`(rssi, count)` in file order.  Counts are assumed not negative. -/
structure Entry where
  bssid : String
  type : TransmitterType
  values : List (Int × ℕ)

/-- `helpers.cpp`: the features by the `type` member of their `properties` (612, 629, 635, 643);
`other` is any further type, for example `barriers`, which no code reads. -/
inductive Feature where
  /-- polygons, each a list of rings, each a list of coordinate arrays -/
  | level (level : String) (polygons : List (List (List (List ℝ))))
  | graph (level : String) (lines : List (List (List ℝ)))
  | transmitter (level uuid : String) (A B : Option ℝ) (type : TransmitterType) (coords : List ℝ)
  | refPoint (level uuid : String) (coords : List ℝ) (entries : List Entry)
  | other

/-- `helpers.cpp` 460-488: `parseTransmitter`; `none`: `at` throws. -/
noncomputable def parseTransmitter (uuid : String) (A B : Option ℝ) (type : TransmitterType) (coords : List ℝ) :
    Option (Transmitter GeoPoint3D) :=
  match coords with
  | lon :: lat :: rest =>
    let z := match rest with
      | [alt] => alt
      | _ => 0
    some ⟨uuid, ⟨lat, lon, z⟩, ⟨A.getD (-80), B.getD 3, 0⟩, type⟩
  | _ => none

/-- `reference_point.h` 18-26: `SignalStatistics`; a mean of `none` is NaN. -/
structure FileStats where
  type : TransmitterType
  mean : Option ℝ
  variance : ℝ
  nMeasurements : ℕ

/-- `helpers.cpp` 531-539: the distribution, a `std::map`; the first count of a value wins. -/
def distribution (values : List (Int × ℕ)) : List (Int × ℕ) :=
  values.foldl (fun m v => StdMap.insert m v.1 v.2) []

/-- `helpers.cpp` 540-562: the statistics of one entry.  `varianceRssi` stays `0`: the sums of
squares are computed and not used. -/
noncomputable def entryStats (e : Entry) : FileStats :=
  let d := distribution e.values
  let n : ℕ := d.foldl (fun n v => n + v.2) 0
  let sum := d.foldl (fun (s : ℝ) v => s + -(v.1 : ℝ) * (v.2 : ℝ)) 0
  ⟨e.type, if n = 0 then none else some (sum / (n : ℝ)), 0, n⟩

/-- `reference_point.h` 30-45: `ReferencePoint` as read from a file. -/
structure FileRefPoint where
  id : String
  point : GeoPoint
  fingerprints : List (String × FileStats)

/-- `helpers.cpp` 513-566: `parseReferencePoint`; the first entry of a transmitter wins. -/
noncomputable def parseReferencePoint (uuid : String) (coords : List ℝ) (entries : List Entry) :
    Option FileRefPoint :=
  match toPoint coords with
  | some p => some ⟨uuid, p, entries.foldl (fun m e => StdMap.insert m e.bssid (entryStats e)) []⟩
  | none => none

/-- `helpers.cpp` 583-593: one coordinate array of a ring; boost points are (latitude, longitude). -/
def toXY : List ℝ → Option XYPoint
  | lon :: lat :: _ => some ⟨lat, lon⟩
  | _ => none

/-- `helpers.cpp` 575-595: one polygon: the first ring is the outer one.  For a polygon without
rings `resize(size() - 1)` asks for `SIZE_MAX` rings and throws. -/
def parsePolygon (rings : List (List (List ℝ))) : Option Polygon :=
  match rings.mapM (fun r => r.mapM toXY) with
  | some (outer :: inners) => some ⟨outer, inners⟩
  | _ => none

/-- `helpers.cpp` 568-598: `parseLevel`. -/
def parseLevel (polygons : List (List (List (List ℝ)))) : Option (List Polygon) :=
  polygons.mapM parsePolygon

/-- `geolevel.h` 25-33: `GeoLevel` as read from a file. -/
structure FileLevel where
  id : String
  transmitters : List (Transmitter GeoPoint3D)
  referencePoints : List FileRefPoint
  geometry : LevelGeometry
  graph : Graph GeoPoint
  altitude : ℝ

/-- `src/barriers_geometry_builder.cpp` 13-24: `getGeometry`; `envelope` is
`boost::geometry::return_envelope<Box>` of a multipolygon. -/
def getGeometry (bg : BoostGeometry) (envelope : List Polygon → Box) (area : List Polygon) : LevelGeometry :=
  let full := area.map (fun p => (⟨bg.correctOuter p.outer, p.inners.map bg.correctInner⟩ : Polygon))
  mkLevelGeometry bg full (envelope full)

/-- `helpers.cpp` 606-617: the first loop over the features, collecting the levels. -/
def readLevels : List (String × List Polygon) → List Feature → Option (List (String × List Polygon))
  | m, [] => some m
  | m, .level id polys :: fs =>
    match parseLevel polys with
    | some p => readLevels (StdMap.insert m id p) fs
    | none => none
  | m, _ :: fs => readLevels m fs

/-- `helpers.cpp` 619-622: the maps filled by the second loop (`barriers` stays empty). -/
structure Tables where
  transmitters : List (String × List (Transmitter GeoPoint3D))
  graphs : List (String × Graph GeoPoint)
  referencePoints : List (String × List FileRefPoint)

/-- `m[k].push_back(v)` (`helpers.cpp` 638-640, 646-648). -/
def pushBack {V : Type} (m : List (String × List V)) (k : String) (v : V) : List (String × List V) :=
  StdMap.set m k ((StdMap.find? m k).getD [] ++ [v])

/-- `helpers.cpp` 624-650: the second loop over the features. -/
noncomputable def readFeatures (order : List (Int × GeoPoint) → List (Int × GeoPoint)) :
    Tables → List Feature → Result Tables
  | t, [] => .ok t
  | t, .graph id lines :: fs =>
    match parseGraph order lines with
    | .ok g => readFeatures order { t with graphs := StdMap.insert t.graphs id g } fs
    | .throws => .throws
    | .undefined => .undefined
  | t, .transmitter id uuid A B type coords :: fs =>
    match parseTransmitter uuid A B type coords with
    | some tx => readFeatures order { t with transmitters := pushBack t.transmitters id tx } fs
    | none => .throws
  | t, .refPoint id uuid coords entries :: fs =>
    match parseReferencePoint uuid coords entries with
    | some rp => readFeatures order { t with referencePoints := pushBack t.referencePoints id rp } fs
    | none => .throws
  | t, _ :: fs => readFeatures order t fs

/-- `helpers.cpp` 674-694: one level of the result. -/
def makeLevel (bg : BoostGeometry) (envelope : List Polygon → Box) (t : Tables)
    (e : String × List Polygon) : FileLevel where
  id := e.1
  altitude := 100
  graph := (StdMap.find? t.graphs e.1).getD NavGraph.empty
  geometry := getGeometry bg envelope e.2
  transmitters := (StdMap.find? t.transmitters e.1).getD []
  referencePoints := (StdMap.find? t.referencePoints e.1).getD []

/-- `helpers.cpp` 600-697: `ParseGeojson` on the features of a document. -/
noncomputable def parseGeojson (bg : BoostGeometry) (envelope : List Polygon → Box)
    (order : List (Int × GeoPoint) → List (Int × GeoPoint)) (fs : List Feature) :
    Result (List FileLevel) :=
  match readLevels [] fs with
  | none => .throws
  | some levels =>
    match readFeatures order ⟨[], [], []⟩ fs with
    | .ok t => .ok (levels.map (makeLevel bg envelope t))
    | .throws => .throws
    | .undefined => .undefined

end Verif.MapLoad
