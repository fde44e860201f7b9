import Verif.Levels.Model
import Verif.Triang.Model
import Verif.Input
import Verif.Position
import Verif.Settings
import Verif.Arith
import Mathlib.Analysis.SpecialFunctions.Pow.Real

/-!
# Model of `src/knn/knn_utils.cpp`, `src/position_estimator/position_estimator_knn.cpp` and
`src/level_estimator/level_estimator_radiomap.cpp`

A `std::multimap<TransmitterId, pair<ReferencePointId, SignalStatistics>>` is the list of its entries
in insertion order; `equal_range(id)` yields the entries with that key in insertion order (guaranteed
since C++11), i.e. `filter`.
-/

namespace Verif.Knn

open Verif.Geo (XYPoint)
open Verif.Levels

/-- `knn_utils.h` 20-25: `struct RefPointsTriangle`. -/
structure RpTriangle where
  rp1 : String
  rp2 : String
  rp3 : String

/-- An entry of the radiomap multimap: transmitter, reference point, statistics. -/
structure Fingerprint where
  tx : String
  rp : String
  stat : SignalStatistics

/-- `boost_geometry_adaptation.h` 27-32 and `knn_utils.cpp` 52-53: the edge limit. -/
noncomputable def maxEdge (b : Box) : ℝ :=
  let width := b.maxCorner.x - b.minCorner.x
  let height := b.maxCorner.y - b.minCorner.y
  max width height

/-- `knn_utils.cpp` 40-84: the loop of `triangulate`; an empty triangulation ends the loop (58). -/
noncomputable def triangulateFrom (s : Triang.Sorts) :
    List Level → List (String × List RpTriangle) → List (String × List RpTriangle)
  | [], m => m
  | l :: ls, m =>
    let rps := l.radiomap.referencePoints
    if rps.length > 3 then
      let vertices := rps.map (fun rp => (⟨rp.point.x, rp.point.y, rp.id⟩ : Triang.Vertex))
      let triangles := Triang.triangulateVertices s vertices (maxEdge l.geometry.boundingBox)
      if triangles.isEmpty then m
      else triangulateFrom s ls (StdMap.insert m l.id (triangles.map (fun t => ⟨t.a.id, t.b.id, t.c.id⟩)))
    else triangulateFrom s ls m

/-- `knn_utils.cpp` 29-86: `triangulate`. -/
noncomputable def triangulate (s : Triang.Sorts) (c : LevelCollector) : List (String × List RpTriangle) :=
  triangulateFrom s c.levels []

/-- `knn_utils.cpp` 100-112: the radiomap of one level. -/
def levelRadiomap (l : Level) : List Fingerprint :=
  l.radiomap.referencePoints.flatMap (fun rp => rp.fingerprints.map (fun p => ⟨p.1, rp.id, p.2⟩))

/-- `knn_utils.cpp` 88-116: `getLevelsRadiomaps`. -/
def getLevelsRadiomaps (c : LevelCollector) : List (String × List Fingerprint) :=
  c.levels.foldl (fun m l => StdMap.set m l.id (levelRadiomap l)) []

/-- `knn_utils.cpp` 124-137: the loop body of `getLevelReferenceTransmittersMap` for one reference
point. -/
def addRpTransmitters (levelId : String) (m : List (String × List String)) (rp : ReferencePoint XYPoint) :
    List (String × List String) :=
  let ids := rp.fingerprints.foldl (fun s p => StdSet.insert p.1 s) []
  if ids.isEmpty then m
  else match StdMap.find? m levelId with
    | none => StdMap.insert m levelId ids
    | some old => StdMap.set m levelId (ids.foldl (fun s x => StdSet.insert x s) old)

/-- `knn_utils.cpp` 118-140: `getLevelReferenceTransmittersMap`. -/
def getLevelReferenceTransmittersMap (c : LevelCollector) : List (String × List String) :=
  c.levels.foldl (fun m l => l.radiomap.referencePoints.foldl (addRpTransmitters l.id) m) []

/-- `knn_utils.cpp` 158-169: `calculateTransmitterTrustworthiness` (`GAMMA` 3, `RSSI_ON_METER` −10,
`G_WEIGHT_COEF` 1.8). -/
noncomputable def trust (m : RadioData) : ℝ :=
  let B : ℝ := 10 * 3
  let txPower := if m.power < 1 / 100000 then -10 else m.power
  let distance := (10 : ℝ) ^ ((txPower - m.rssi) / B)
  1 ÷ distance ^ (9 / 5 : ℝ)

/-- `knn_utils.cpp` 171-193: `calcTransmittersWeights` (`USE_AP_WEIGHTS` is true). -/
noncomputable def calcTransmittersWeights (msr : List RadioData) : List (String × ℝ) :=
  let r := msr.foldl (fun (a : List (String × ℝ) × ℝ) m =>
    let w := trust m
    (StdMap.set a.1 m.id w, a.2 + w)) ([], 0)
  r.1.map (fun p => (p.1, p.2 ÷ r.2))

/-- `trWeights[id]`: `operator[]`, absent keys read as 0. -/
noncomputable def weightOf (w : List (String × ℝ)) (id : String) : ℝ := (StdMap.find? w id).getD 0

/-- `knn_utils.cpp` 207: `struct SigStat`. -/
structure SigStat where
  txId : String
  measured : ℝ
  database : ℝ

/-- `knn_utils.cpp` 216-221: append to the statistics of a reference point. -/
def addStat (st : List (String × List SigStat)) (rp : String) (x : SigStat) : List (String × List SigStat) :=
  StdMap.set st rp ((StdMap.find? st rp).getD [] ++ [x])

/-- `knn_utils.cpp` 209-223: group the matching fingerprints by reference point. -/
def rpStatistics (radiomap : List Fingerprint) (msr : List RadioData) : List (String × List SigStat) :=
  msr.foldl (fun st m => (radiomap.filter (fun f => f.tx == m.id)).foldl
    (fun st f => addStat st f.rp ⟨m.id, m.rssi, f.stat.mean⟩) st) []

/-- `knn_utils.cpp` 240-251: the inner loop (over `it2` before `it1`); the pair is
(`rpWeights[rpId]`, `rpNormalize[rpId]`). -/
noncomputable def accInner (w : List (String × ℝ)) (a : SigStat) (before : List SigStat) (acc : ℝ × ℝ) : ℝ × ℝ :=
  before.foldl (fun acc b =>
    let measDiff := a.measured - b.measured
    let mapDiff := a.database - b.database
    let apW := weightOf w a.txId * weightOf w b.txId
    (acc.1 + max (|mapDiff - measDiff| * apW) (1 / 1000000), acc.2 + apW)) acc

/-- `knn_utils.cpp` 236-260: the loop over `it1`; `before` holds the entries already passed. -/
noncomputable def accOuter (w : List (String × ℝ)) (diffMode : Bool) :
    List SigStat → List SigStat → ℝ × ℝ → ℝ × ℝ
  | _, [], acc => acc
  | before, a :: rest, acc =>
    let acc' := if diffMode then accInner w a before acc
      else
        let apW := weightOf w a.txId
        (acc.1 + max (|a.database + a.measured| * apW) (1 / 1000000), acc.2 + apW)
    accOuter w diffMode (before ++ [a]) rest acc'

/-- `knn_utils.cpp` 268-293: normalise and invert (`MIN_WEIGHT_EPSILON` 1e-8). -/
noncomputable def finishWeight (n : ℕ) (acc : ℝ × ℝ) : ℝ :=
  if acc.1 > 1 / 100000000 then
    let w1 := if acc.2 > 1 / 100000000 then acc.1 ÷ acc.2 else acc.1
    let w2 := root w1
    let w3 := if n > 0 then w2 ÷ n else w2
    1 ÷ w3
  else acc.1

/-- `knn_utils.cpp` 201-297: `calcRpWeightsKnn`.  Every reference point is visited once, so the
entries of `rpWeights` and `rpNormalize` are computed per reference point; for at least three
statistics the loops add to both, so the entry exists. -/
noncomputable def calcRpWeightsKnn (radiomap : List Fingerprint) (msr : List RadioData) (diffMode : Bool) :
    List (String × ℝ) :=
  let w := calcTransmittersWeights msr
  (rpStatistics radiomap msr).filterMap (fun p =>
    if p.2.length < 3 then none
    else some (p.1, finishWeight p.2.length (accOuter w diffMode [] p.2 (0, 0))))

/-- `knn_utils.h` 62-68 and `knn_utils.cpp` 299-308: `getTriangleWeight`. -/
noncomputable def triangleWeight (w : List (String × ℝ)) (t : RpTriangle) : ℝ :=
  weightOf w t.rp1 + weightOf w t.rp2 + weightOf w t.rp3

/-- `std::max_element` with `lhs < rhs` on the weights: the first maximum; `none`: empty range. -/
noncomputable def maxElement (w : List (String × ℝ)) : List RpTriangle → Option RpTriangle
  | [] => none
  | t :: ts => some (ts.foldl (fun best u => if triangleWeight w best < triangleWeight w u then u else best) t)

/-- `std::numeric_limits<double>::epsilon()`, i.e. 2⁻⁵². -/
noncomputable def doubleEpsilon : ℝ := (1 / 2) ^ 52

/-- What a call does: it returns, it throws `std::out_of_range`, or its behaviour is undefined. -/
inductive Result (α : Type) where
  | ok (a : α)
  | throws
  | undefined

/-- `knn_utils.cpp` 310-350: `calcPositionInTriangle`; undefined: dereferencing the end iterator. -/
noncomputable def calcPositionInTriangle (triangles : List RpTriangle) (rm : Radiomap) (w : List (String × ℝ)) :
    Result XYPoint :=
  match maxElement w triangles with
  | none => .undefined
  | some t =>
    let w1 := weightOf w t.rp1
    let w2 := weightOf w t.rp2
    let w3 := weightOf w t.rp3
    let norm := w1 + w2 + w3
    if norm < doubleEpsilon then .ok ⟨0, 0⟩
    else if !rm.hasReferencePoint t.rp1 || !rm.hasReferencePoint t.rp2 || !rm.hasReferencePoint t.rp3 then .ok ⟨0, 0⟩
    else match rm.getReferencePoint t.rp1, rm.getReferencePoint t.rp2, rm.getReferencePoint t.rp3 with
      | some a, some b, some c =>
        .ok ⟨(w1 * a.point.x + w2 * b.point.x + w3 * c.point.x) ÷ norm,
              (w1 * a.point.y + w2 * b.point.y + w3 * c.point.y) ÷ norm⟩
      | _, _, _ => .throws

/-- `std::partial_sort_copy(src, dest)` for a destination of `n` elements: it receives the first
`min(n, src.size())` elements of the sorted source. -/
def partialSortCopy {α : Type} (sort : List α → List α) (src : List α) (n : ℕ) : List α := (sort src).take n

/-- `knn_utils.cpp` 368-391: the weighted mean over the chosen points; `none`: `at` throws. -/
noncomputable def weightedMean (rm : Radiomap) (pts : List (String × ℝ)) : Option XYPoint :=
  match pts.foldlM (fun (a : ℝ × ℝ × ℝ) p =>
      (rm.getReferencePoint p.1).map (fun rp => (a.1 + p.2 * rp.point.x, a.2.1 + p.2 * rp.point.y, a.2.2 + p.2)))
      ((0 : ℝ), (0 : ℝ), (0 : ℝ)) with
  | none => none
  | some (x, y, norm) => some (if norm < doubleEpsilon then ⟨0, 0⟩ else ⟨x ÷ norm, y ÷ norm⟩)

/-- `knn_utils.cpp` 352-391: `calcKHeaviestRefPointsAverage`. `reserve(k)` (358) leaves the size of
`kHeaviestPoints` at 0, so the destination range of `partial_sort_copy` has no element. -/
noncomputable def calcKHeaviest (sort : List (String × ℝ) → List (String × ℝ)) (rm : Radiomap)
    (w : List (String × ℝ)) (_k : ℕ) : Option XYPoint :=
  let destinationSize := 0
  weightedMean rm (partialSortCopy sort w destinationSize)

/-- `knn_utils.cpp` 393-403: `getWhitelistedMeasurements`. -/
def getWhitelistedMeasurements (wl : List String) (msr : List RadioData) : List RadioData :=
  msr.filter (fun m => wl.contains m.id)

/-! ## `position_estimator_knn.cpp` -/

/-- `position_estimator_knn.h` 34-43: the constant members. -/
structure Cfg where
  useTriangles : Bool
  useDiffMode : Bool
  k : ℕ
  minMsr : ℕ
  triangles : List (String × List RpTriangle)
  refTransmitters : List (String × List String)
  radiomaps : List (String × List Fingerprint)
  sort : List (String × ℝ) → List (String × ℝ)

/-- `position_estimator_knn.cpp` 22-34: the constructor. -/
noncomputable def mkCfg (s : Triang.Sorts) (sort : List (String × ℝ) → List (String × ℝ)) (c : LevelCollector)
    (p : CommonSettings) : Cfg where
  useTriangles := p.useTriangles
  useDiffMode := p.useDiffMode
  k := p.kNeighbors
  minMsr := p.minNumOfMeasurementsForPositionCalculation
  triangles := triangulate s c
  refTransmitters := getLevelReferenceTransmittersMap c
  radiomaps := getLevelsRadiomaps c
  sort := sort

/-- `position_estimator_knn.cpp` 36-100: `calculatePosition`. The state is the stored `mPosition`,
which is also what is returned, so the result is (status, new `mPosition`). -/
noncomputable def calculatePosition (c : Cfg) (mPosition : Position) (level : Level) (ts : Int)
    (msr : List RadioData) : Result (NavigationStatus × Position) :=
  if msr.isEmpty then .ok (.NO_SOLUTION, mPosition)
  else match StdMap.find? c.refTransmitters level.id with
    | none => .throws
    | some ids =>
      let valid := getWhitelistedMeasurements ids msr
      if valid.length < c.minMsr then .ok (.NO_SOLUTION, mPosition)
      else match StdMap.find? c.radiomaps level.id with
        | none => .throws
        | some signalMap =>
          let w := calcRpWeightsKnn signalMap valid c.useDiffMode
          let done := fun (p : XYPoint) =>
            Result.ok (NavigationStatus.OK, (⟨p.x, p.y, level.id, 1, ts, false, .INDOOR, 0⟩ : Position))
          if c.useTriangles then
            match StdMap.find? c.triangles level.id with
            | none => .ok (.NAVIGATION_ERROR, mPosition)
            | some triangles =>
              if triangles.isEmpty then .ok (.NO_RPS, mPosition)
              else match calcPositionInTriangle triangles level.radiomap w with
                | .undefined => .undefined
                | .throws => .throws
                | .ok p => done p
          else match calcKHeaviest c.sort level.radiomap w c.k with
            | none => .throws
            | some p => done p

/-! ## `level_estimator_radiomap.cpp` -/

/-- `level_estimator_radiomap.cpp` 57-79: one measurement's contribution; the pair is
(`levelWeight`, `nUniqueTransmitters`). -/
noncomputable def calcWeightStep (fps : List Fingerprint) (acc : ℝ × ℕ) (m : RadioData) : ℝ × ℕ :=
  let range := fps.filter (fun f => f.tx == m.id)
  let measWeight := range.foldl (fun a f => a + 1 ÷ (|(|m.rssi| - |f.stat.mean|)| + 1 / 10)) (0 : ℝ)
  let lw := if range.length > 0 then acc.1 + measWeight ÷ range.length else acc.1
  (lw, if range.length > 0 then acc.2 + 1 else acc.2)

/-- `level_estimator_radiomap.cpp` 48-83: `calcWeight`. -/
noncomputable def calcWeight (msr : List RadioData) (fps : List Fingerprint) : ℝ :=
  let r := msr.foldl (calcWeightStep fps) (0, 0)
  r.1 * r.2

/-- `level_estimator_radiomap.cpp` 86-107: `calcWeightBestRp`. -/
noncomputable def calcWeightBestRp (msr : List RadioData) (fps : List Fingerprint) : ℝ :=
  (calcRpWeightsKnn fps msr true).foldl (fun b p => if p.2 > b then p.2 else b) 0

/-- `level_estimator_radiomap.cpp` 31-42: the loop body; `none`: `at` throws. -/
noncomputable def detectStep (useBestRp : Bool) (maps : List (String × List Fingerprint)) (msr : List RadioData)
    (best : ℝ × String) (l : Level) : Option (ℝ × String) :=
  match StdMap.find? maps l.id with
  | none => none
  | some rm =>
    let w := if useBestRp then calcWeightBestRp msr rm else calcWeight msr rm
    some (if w > best.1 then (w, l.id) else best)

/-- `level_estimator_radiomap.cpp` 26-45: `detectCurrentLevel`; `maps` is computed by the constructor
(16-24). -/
noncomputable def detectByRadiomap (useBestRp : Bool) (maps : List (String × List Fingerprint)) (c : LevelCollector)
    (msr : List RadioData) : Option String :=
  (c.levels.foldlM (detectStep useBestRp maps msr) (0, "")).map Prod.snd

end Verif.Knn
