import Verif.Nav.ZoneSpec
import Verif.Knn.HullProps

/-!
# Specification vocabulary for C113: a building with one floor and fingerprints, and a client without smoothing

Everything is said in terms of the measurements given to the client and of the map.
-/

namespace Verif.Nav

open Verif.Levels
open Verif.Geo (XYPoint)

/-- Settings that locate by fingerprints. -/
structure ByFingerprints (cs : CommonSettings) : Prop where
  algorithm : cs.useAlgorithm = .KNN
  best : cs.useBestRefPointLevel = false
  least : 1 ≤ cs.minNumOfMeasurementsForPositionCalculation

/-- Settings that locate by fingerprints and pass the positions on as they are. -/
structure PlainFingerprints (cs : CommonSettings) : Prop extends Plain cs, ByFingerprints cs

/-- A reference point of the floor has a fingerprint of the transmitter. -/
def OnMap (lv : Level) (tx : String) : Prop :=
  ∃ rp ∈ lv.radiomap.referencePoints, ∃ p ∈ rp.fingerprints, p.1 = tx

/-- As many different transmitters with fingerprints as the settings ask for were heard in the window. -/
def Enough (lv : Level) (cs : CommonSettings) (win : List RadioMeasurement) : Prop :=
  ∃ ids : List String, ids.Nodup ∧ cs.minNumOfMeasurementsForPositionCalculation ≤ ids.length ∧
    ∀ id ∈ ids, OnMap lv id ∧ ∃ m ∈ win, m.data.id = id

/-- If triangles are to be used, the floor has more than three reference points and a triangle. -/
def Meshed (s : Triang.Sorts) (lv : Level) (cs : CommonSettings) : Prop :=
  cs.useTriangles = true → 3 < lv.radiomap.referencePoints.length ∧ Knn.levelTriangles s lv ≠ []

/-- A window from which a place is computed. -/
def Locates (s : Triang.Sorts) (lv : Level) (cs : CommonSettings) (win : List RadioMeasurement) : Prop :=
  Enough lv cs win ∧ Meshed s lv cs

/-- The measurement `m` after the history `ms` closes the window `win`, at the time `t`. -/
def ClosesWith (ls : List Level) (cs : CommonSettings) (ms : List Measurement) (m : Measurement) (t : Int)
    (win : List RadioMeasurement) : Prop :=
  Closes ls cs ms m ∧ (windows ls cs (ms ++ [m])).closed = some (t, win)

/-- `win`, closed at `t`, is the last closed window with the property `P`. -/
def LastWindow (ls : List Level) (cs : CommonSettings) (P : List RadioMeasurement → Prop) (ms : List Measurement) (t : Int)
    (win : List RadioMeasurement) : Prop :=
  ∃ before m after, ms = before ++ m :: after ∧ ClosesWith ls cs before m t win ∧ P win ∧
    ∀ a e b, after = a ++ e :: b → ∀ t' w, ClosesWith ls cs (before ++ m :: a) e t' w → ¬ P w

/-- No closed window has the property `P`. -/
def NoWindow (ls : List Level) (cs : CommonSettings) (P : List RadioMeasurement → Prop) (ms : List Measurement) : Prop :=
  ∀ a e b, ms = a ++ e :: b → ∀ t w, ClosesWith ls cs a e t w → ¬ P w

/-- The averages of a window for the transmitters with fingerprints on the floor. -/
structure MapAverages (lv : Level) (win : List RadioMeasurement) (avg : List RadioData) : Prop where
  sorted : (avg.map RadioData.id).Pairwise (· < ·)
  ids : ∀ id, (∃ e ∈ avg, e.id = id) ↔ OnMap lv id ∧ ∃ m ∈ win, m.data.id = id
  rssi : ∀ e ∈ avg, e.rssi = meanRssi win e.id
  power : ∀ e ∈ avg, ∃ m ∈ win, m.data.id = e.id ∧ m.data.power = e.power

/-- The weight of a reference point: none without three matches, otherwise the one of C29. -/
noncomputable def rpWeight (lv : Level) (cs : CommonSettings) (avg : List RadioData) (rp : String) : ℝ :=
  let M := Knn.matched (Knn.levelRadiomap lv) avg rp
  if M.length < 3 then 0 else if cs.useDiffMode then Knn.diffWeight avg M else Knn.absWeight avg M

/-- The weight of a triangle. -/
noncomputable def meshWeight (lv : Level) (cs : CommonSettings) (avg : List RadioData) (t : Triang.Triangle) : ℝ :=
  rpWeight lv cs avg t.a.id + rpWeight lv cs avg t.b.id + rpWeight lv cs avg t.c.id

/-- The place for the averages: with triangles the weighted mean of the corners of the first heaviest triangle, or the origin if
its weight vanishes; without triangles always the origin (C31). -/
def PlaceOf (s : Triang.Sorts) (lv : Level) (cs : CommonSettings) (avg : List RadioData) (p : XYPoint) : Prop :=
  if cs.useTriangles then
    ∃ before t after, Knn.levelTriangles s lv = before ++ t :: after ∧
      (∀ u ∈ before, meshWeight lv cs avg u < meshWeight lv cs avg t) ∧
      (∀ u ∈ after, meshWeight lv cs avg u ≤ meshWeight lv cs avg t) ∧
      (meshWeight lv cs avg t < 1 / 2 ^ 52 → p = ⟨0, 0⟩) ∧
      (1 / 2 ^ 52 ≤ meshWeight lv cs avg t →
        ∃ a ∈ lv.radiomap.referencePoints, ∃ b ∈ lv.radiomap.referencePoints, ∃ d ∈ lv.radiomap.referencePoints,
          a.id = t.a.id ∧ b.id = t.b.id ∧ d.id = t.c.id ∧ Knn.InTriangle p a.point b.point d.point ∧
          meshWeight lv cs avg t * p.x = rpWeight lv cs avg a.id * a.point.x + rpWeight lv cs avg b.id * b.point.x +
            rpWeight lv cs avg d.id * d.point.x ∧
          meshWeight lv cs avg t * p.y = rpWeight lv cs avg a.id * a.point.y + rpWeight lv cs avg b.id * b.point.y +
            rpWeight lv cs avg d.id * d.point.y)
  else p = ⟨0, 0⟩

end Verif.Nav
