import Verif.Nav.ZoneSpec
import Verif.Estim.Model
import Verif.Geometry.Model

/-!
# Specification vocabulary for C133: a building with one floor and beacons, and a client that also uses satellites

Everything is said in terms of the measurements given to the client.
-/

namespace Verif.Mixed

open Verif.Levels Verif.Nav
open Verif.Geo (XYPoint)

/-- Settings that locate by zones and by satellites, without smoothing and without the filter for fixes. -/
structure ZonesAndGps (cs : CommonSettings) : Prop extends Framed cs, ByZones cs where
  barometer : cs.useBarometer = false
  smoothing : cs.useSmoothing = false
  gps : cs.useGps = true
  instant : cs.useInstantGpsPosition = false
  sigma : cs.useGpsSigmaFilter = false

/-- A place on the floor with its radius and its time. -/
structure Fix where
  place : XYPoint
  radius : ℝ
  time : Int

/-- The law of the zones on the floor: the settings give it the numbers `a` and `b`. -/
def ZoneLaw (c : Cfg) (lv : Level) (a b : ℝ) : Prop :=
  ∃ A B, c.indoor = .zone A B ∧ StdMap.find? A lv.id = some a ∧ StdMap.find? B lv.id = some b ∧ b ≠ 0

open Classical in
/-- The zone of a window that was closed at the time `t0`: the place of the strongest transmitter, with the radius that
follows from its mean strength. -/
noncomputable def zoneFix (lv : Level) (a b : ℝ) (t0 : Int) (win : List RadioMeasurement) : Option Fix :=
  if h : ∃ p : String × Transmitter XYZPoint, Strongest win p.1 ∧ lv.transmitter p.1 = some p.2 then
    some ⟨⟨h.choose.2.point.x, h.choose.2.point.y⟩, Real.exp ((a - meanRssi win h.choose.1) / (2 * b)) + 1, t0⟩
  else none

open Classical in
/-- The zone that the message `m` after `ms` brings: that of the window it closes. -/
noncomputable def radioFix (lv : Level) (cs : CommonSettings) (a b : ℝ) (ms : List Measurement) (m : Measurement) : Option Fix :=
  if Closes [lv] cs ms m then (windows [lv] cs (ms ++ [m])).closed.bind (fun r => zoneFix lv a b r.1 r.2) else none

/-- At the message `m` after `ms` the last sensor message is a fix of the satellite receiver. -/
def AtFix (g : Garbage) (ms : List Measurement) (m : Measurement) : Prop :=
  (lastSensor g.sensor (ms ++ [m])).data.type = .LOCATION

/-- The place on the floor of the last sensor message, read as a fix. -/
noncomputable def fixPlace (lv : Level) (g : Garbage) (ms : List Measurement) (m : Measurement) : XYPoint :=
  Geo.gpsToLocal ⟨(lastSensor g.sensor (ms ++ [m])).data.values.x, (lastSensor g.sensor (ms ++ [m])).data.values.y⟩ lv.bindingPoint

/-- The last NMEA message announces enough satellites, or none at all. -/
def EnoughSatellites (cs : CommonSettings) (g : Garbage) (ms : List Measurement) (m : Measurement) : Prop :=
  let n := (lastNmea g.nmea (ms ++ [m])).data
  n.sentenceNumber = 1 → n.satellitesNumber ≠ 0 → (cs.minNumSats : Int) ≤ n.satellitesNumber

open Classical in
/-- The fix that is taken over at the message `m` after `ms`: the last sensor message, if it is a fix in the bounding box of the
floor and there are enough satellites. It counts as a fix of the time of `m`. -/
noncomputable def seen (lv : Level) (cs : CommonSettings) (g : Garbage) (ms : List Measurement) (m : Measurement) : Option Fix :=
  if AtFix g ms m ∧ Estim.Box.Covers lv.geometry.boundingBox (fixPlace lv g ms m) ∧ EnoughSatellites cs g ms m then
    some ⟨fixPlace lv g ms m, max (lastSensor g.sensor (ms ++ [m])).data.values.z cs.minGpsDeviation, m.ts⟩
  else none

/-- A fix in store; the spread is a weighted mean of the radii of all the fixes so far. -/
structure Kept extends Fix where
  spread : ℝ

/-- A fix is put into the store. Before, the spread grows with the time since the last one, up to the prior one. -/
noncomputable def keep (cs : CommonSettings) (old : Option Kept) (f : Fix) : Kept :=
  let prior := match old with
    | none => cs.priorDeviation
    | some o => min cs.priorDeviation (o.spread + cs.averageMovSpeed * ((f.time - o.time : Int) : ℝ) / 1000)
  ⟨f, (prior + f.radius) / 2⟩

/-- The store after a message that may bring a fix. -/
noncomputable def store (cs : CommonSettings) (old : Option Kept) : Option Fix → Option Kept
  | none => old
  | some f => some (keep cs old f)

/-- What the client has in store: the last fix of the satellite receiver that was taken over, and the last zone and the last
satellite place that were weighed against each other. -/
structure Store where
  fix : Option Fix
  zone : Option Kept
  sat : Option Kept

open Classical in
/-- The satellite place that is offered at the message `m`: while the last sensor message is a fix, that fix, or nothing if it is
not taken over; later the last fix that was taken over, as long as it is valid. -/
noncomputable def offered (lv : Level) (cs : CommonSettings) (g : Garbage) (st : Store) (ms : List Measurement) (m : Measurement) :
    Option Fix :=
  if AtFix g ms m then seen lv cs g ms m
  else match st.fix with
    | none => none
    | some f => if ((m.ts - f.time : Int) : ℝ) / 1000 ≤ cs.gpsValidTimeWindowSec then some f else none

/-- The floor is in use: a window of signals was closed, and the last signal is recent. -/
def InUse (lv : Level) (cs : CommonSettings) (ms : List Measurement) (m : Measurement) : Prop :=
  Fresh [lv] cs ms m ∧ (windows [lv] cs (ms ++ [m])).closed ≠ none

open Classical in
/-- The store after the message `m`. Zones and satellite places are weighed only while the floor is in use. -/
noncomputable def Store.after (lv : Level) (cs : CommonSettings) (a b : ℝ) (g : Garbage) (ms : List Measurement) (st : Store)
    (m : Measurement) : Store :=
  let fix := match seen lv cs g ms m with
    | none => st.fix
    | some f => some f
  if InUse lv cs ms m then
    ⟨fix, store cs st.zone (radioFix lv cs a b ms m), store cs st.sat (offered lv cs g st ms m)⟩
  else ⟨fix, st.zone, st.sat⟩

/-- The store after a history. -/
noncomputable def stored (lv : Level) (cs : CommonSettings) (a b : ℝ) (g : Garbage) (ms : List Measurement) : Store :=
  (List.range ms.length).foldl (fun st k => ms[k]?.elim st (st.after lv cs a b g (ms.take k))) ⟨none, none, none⟩

/-- The age of a fix in seconds. -/
noncomputable def age (now : Int) (k : Kept) : ℝ := max 0 (((now - k.time : Int) : ℝ) / 1000)

/-- How far off a fix may be by now. -/
noncomputable def reach (cs : CommonSettings) (now : Int) (k : Kept) : ℝ := cs.averageMovSpeed * age now k + k.spread

/-- The place that is chosen, its time, and where it comes from. -/
structure Choice where
  place : XYPoint
  time : Int
  provider : Provider

/-- The zone itself. -/
def Kept.asZone (k : Kept) : Choice := ⟨k.place, k.time, .INDOOR⟩

/-- The satellite place itself. -/
def Kept.asSat (k : Kept) : Choice := ⟨k.place, k.time, .GNSS⟩

/-- The mean of a zone and a satellite place, each weighted with how far off the other one may be. -/
noncomputable def blend (cs : CommonSettings) (now : Int) (i o : Kept) : Choice :=
  let ri := reach cs now i
  let ro := reach cs now o
  ⟨⟨(i.place.x * ro + o.place.x * ri) ÷ (ro + ri), (i.place.y * ro + o.place.y * ri) ÷ (ro + ri)⟩, max i.time o.time, .FUSED⟩

/-- The circles around the zone and the satellite place overlap, with the margin of the settings. -/
def Overlap (cs : CommonSettings) (i o : Kept) : Prop :=
  Geometry.getDist i.place.x i.place.y o.place.x o.place.y < i.radius + o.radius + cs.fuseGpsBorderM

open Classical in
/-- The choice between the last zone and the last satellite place; `now` closes a window or not. -/
noncomputable def choose (cs : CommonSettings) (closes : Prop) (now : Int) (i : Kept) : Option Kept → Choice
  | none => i.asZone
  | some o =>
    if cs.preferIndoorSolution = true ∧ closes then i.asZone
    else if cs.positionIsTooOldSec < age now i then o.asSat
    else if cs.positionIsTooOldSec < age now o then i.asZone
    else if cs.fuseGps = true ∧ Overlap cs i o then blend cs now i o
    else if reach cs now i < reach cs now o then i.asZone
    else o.asSat

end Verif.Mixed
