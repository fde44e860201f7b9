import Verif.Track.Spec
import Verif.Nav.KnnSpec

/-!
# Specification vocabulary for C132: a client with fingerprints on one floor and the default smoothing

Everything is said in terms of the measurements given to the client, the map and the settings.
-/

namespace Verif.Trail

open Verif.Levels Verif.Nav
open Verif.Geo (XYPoint)
open Verif.Track (Fix)

/-- The settings of a client that locates by fingerprints and smooths with the alpha-beta filter; the default settings with the
algorithm KNN are such. -/
structure SmoothFingerprints (cs : CommonSettings) : Prop extends Track.Smoothed cs, ByFingerprints cs

/-- `p` is the place of the averages of the window. -/
def PlaceIn (s : Triang.Sorts) (lv : Level) (cs : CommonSettings) (win : List RadioMeasurement) (p : XYPoint) : Prop :=
  ∃ avg, MapAverages lv win avg ∧ PlaceOf s lv cs avg p

/-- The fix of a window: its place, if one is computed and lies in the bounding box of the floor, at the time of closing. -/
def WindowFix (s : Triang.Sorts) (lv : Level) (cs : CommonSettings) (w : Int × List RadioMeasurement) : Option Fix → Prop
  | some f => Locates s lv cs w.2 ∧ f.time = w.1 ∧ PlaceIn s lv cs w.2 f.place ∧ Estim.Box.Covers lv.geometry.boundingBox f.place
  | none => Locates s lv cs w.2 → ∃ p, PlaceIn s lv cs w.2 p ∧ ¬ Estim.Box.Covers lv.geometry.boundingBox p

/-- `fs` are the fixes of the windows `ws`. -/
def FixesOf (s : Triang.Sorts) (lv : Level) (cs : CommonSettings) (ws : List (Int × List RadioMeasurement)) (fs : List Fix) : Prop :=
  ∃ os, List.Forall₂ (WindowFix s lv cs) ws os ∧ fs = os.filterMap id

end Verif.Trail
