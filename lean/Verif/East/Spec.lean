import Verif.Nav.Spec

/-!
# Specification for C142: the same building further east
-/

namespace Verif.East

open Verif.Levels Verif.Nav
open Verif.Geo (XYPoint GeoPoint)

/-- A place `δ` degrees further east (west if `δ` is negative). -/
def eastPoint (δ : ℝ) (p : GeoPoint) : GeoPoint := ⟨p.latitude, p.longitude + δ⟩

/-- The same for a point of a geometry, whose second coordinate is the longitude. -/
def eastXY (δ : ℝ) (p : XYPoint) : XYPoint := ⟨p.x, p.y + δ⟩

/-- The same for a box of such points. -/
def eastBox (δ : ℝ) (b : Box) : Box := ⟨eastXY δ b.minCorner, eastXY δ b.maxCorner⟩

/-- The same for a polygon of such points. -/
def eastPolygon (δ : ℝ) (p : Polygon) : Polygon := ⟨p.outer.map (eastXY δ), p.inners.map (List.map (eastXY δ))⟩

/-- The same floor plan `δ` degrees further east. -/
def eastFloor (δ : ℝ) (g : GeoLevel) : GeoLevel where
  id := g.id
  transmitters := g.transmitters.map fun t => { t with point := { t.point with longitude := t.point.longitude + δ } }
  referencePoints := g.referencePoints.map fun r => { r with point := eastPoint δ r.point }
  geometry := ⟨g.geometry.allowedArea.map (eastPolygon δ), eastBox δ g.geometry.boundingBox, g.geometry.innerBarriers.map (List.map (eastXY δ))⟩
  graph := ⟨g.graph.vertices.map fun v => { v with point := eastPoint δ v.point }, g.graph.edges⟩
  altitude := g.altitude

/-- The same floor on a map: its local coordinates are the same, they refer to a point further east. -/
def eastLevel (δ : ℝ) (l : Level) : Level := { l with bindingPoint := eastPoint δ l.bindingPoint }

/-- The same map. -/
def eastMap (δ : ℝ) (c : LevelCollector) : LevelCollector := { c with levels := c.levels.map (eastLevel δ) }

/-- The same sensor values; a satellite fix is `δ` degrees further east. -/
def eastSensor (δ : ℝ) (d : SensorData) : SensorData :=
  if d.type = .LOCATION then { d with values := { d.values with y := d.values.y + δ } } else d

/-- The same message; a satellite fix is `δ` degrees further east. -/
def eastMsg (δ : ℝ) (m : Measurement) : Measurement :=
  match m.data with
  | .sensor d => ⟨.sensor (eastSensor δ d), m.ts⟩
  | _ => m

/-- The same answer `δ` degrees further east, where longitudes count up to whole turns. -/
structure EastAnswer (δ : ℝ) (o o' : Output) : Prop where
  status : o'.status = o.status
  level : o'.posLevel = o.posLevel
  latitude : o'.posLatitude = o.posLatitude
  longitude : o.posLevel ≠ "" → ∃ k : ℤ, o'.posLongitude = o.posLongitude + δ + 360 * k
  nowhere : o.posLevel = "" → o'.posLongitude = o.posLongitude
  altitude : o'.posAltitude = o.posAltitude
  radius : o'.posR = o.posR
  orientation : o'.posOrientation = o.posOrientation
  provider : o'.provider = o.provider

/-- The test whether a place is allowed reads nothing of a floor but its geometry. -/
def ReadsGeometry (env : Env) : Prop := ∀ l l' : Level, l.geometry = l'.geometry → env.allowed l = env.allowed l'

end Verif.East
