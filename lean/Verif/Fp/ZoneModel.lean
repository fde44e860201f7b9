import Verif.Fp.MeanModel
import Verif.Fp.GeoModel
import Verif.Estim.Model

/-!
# A message that closes a window, in floating point

The chain from the window to the answer of a client that locates by zones, without satellites, smoothers and graph.
-/

namespace Verif.Fp

open Verif.Levels Verif.Post Verif.Radio
open Verif.Geo (XYPoint GeoPoint)

variable (R : Rounding) (K : Cosine)

/-- A window of records, the time at which it is closed, and the time of the last motion known then. -/
structure Window where
  records : List RadioMeasurement
  ts : Int
  motion : Int

/-- `position_postprocessor.cpp` 51-61: a position that was found replaces the stored one.  The radius of the zone
(`position_estimator_zone.cpp` 67) is kept without rounding and the deviation of line 60 is left out; without satellites neither
influences the place that is shown. -/
noncomputable def fillZoneF (s : Sorts) (A B : List (String × ℝ)) (lv : Level) (st : PostState) (c : Window) : PostState :=
  let p := (Estim.zonePosition A B lv c.ts (averagesF R s c.records)).2
  if p.isEmpty then st else { st with indoorPos := p }

/-- `navigation_client_impl.cpp` 82-104 and 134-158 on the floor `lv`, without satellites: the fused position is the stored indoor
position (`position_postprocessor.cpp` 88-89; 85-86 returns the same one).  Given are the position that is shown for the window, its
latitude and longitude (`none`: no position), and the state after it. -/
noncomputable def zoneAnswerF (s : Sorts) (cs : CommonSettings) (A B : List (String × ℝ)) (lv : Level) (st : PostState) (c : Window) :
    (Position × Option GeoPoint) × PostState :=
  let st' := fillZoneF R s A B lv st c
  let r := processedF R cs st' st'.indoorPos c.ts c.motion lv
  ((r.1, if r.1.isEmpty then none else some (localToGpsF R K ⟨r.1.x, r.1.y⟩ lv.bindingPoint)), r.2)

/-- The state after a list of windows, from the state of a new client (`position_postprocessor.cpp` 32-36). -/
noncomputable def zoneStateF (s : Sorts) (cs : CommonSettings) (A B : List (String × ℝ)) (lv : Level) (past : List Window) :
    PostState :=
  past.foldl (fun st c => (zoneAnswerF R K s cs A B lv st c).2) (postInit cs)

end Verif.Fp
