import Verif.Knn.Model

/-!
# Model of `src/likelihood/likelihood.cpp` and `src/likelihood/likelihood_radiomap.cpp`

The debug members under `NAVIGATION_VISUALIZATION` are left out.
-/

namespace Verif.Likelihood

open Verif.Levels
open Verif.Geo (XYPoint)
open Verif.Knn (Result RpTriangle Fingerprint)

/-- `xy_particle.h` 16-30: `struct XYParticle`. -/
structure Particle where
  x : ℝ
  y : ℝ
  angle : ℝ

/-- `likelihood_radiomap.h`: the constant members. -/
structure Cfg where
  k : ℕ
  minMutation : ℕ
  minPosition : ℕ
  useTriangles : Bool
  useDiffMode : Bool
  triangles : List (String × List RpTriangle)
  refTransmitters : List (String × List String)
  radiomaps : List (String × List Fingerprint)
  sort : List (String × ℝ) → List (String × ℝ)

/-- `likelihood_radiomap.cpp` 14-29: the constructor, constant part; the triangulation is only made when it
is used. -/
noncomputable def mkCfg (s : Triang.Sorts) (sort : List (String × ℝ) → List (String × ℝ)) (c : LevelCollector)
    (p : CommonSettings) : Cfg where
  k := p.kNeighbors
  minMutation := p.minMsrNumForMutation
  minPosition := p.minNumOfMeasurementsForPositionCalculation
  useTriangles := p.useTriangles
  useDiffMode := p.useDiffMode
  triangles := if p.useTriangles then Knn.triangulate s c else []
  refTransmitters := Knn.getLevelReferenceTransmittersMap c
  radiomaps := Knn.getLevelsRadiomaps c
  sort := sort

/-- `likelihood_radiomap.cpp` 34-35, 43-44, 61-62, 149-150: the usable measurements; `none`: `at` throws. -/
def validMsr (cfg : Cfg) (level : Level) (msr : List RadioData) : Option (List RadioData) :=
  (StdMap.find? cfg.refTransmitters level.id).map (fun ids => Knn.getWhitelistedMeasurements ids msr)

/-- `likelihood_radiomap.cpp` 31-37: `hasSufficientMeasurementsForUpdate`. -/
def sufficientForUpdate (cfg : Cfg) (level : Level) (msr : List RadioData) : Option Bool :=
  (validMsr cfg level msr).map (fun v => decide (v.length ≥ cfg.minPosition))

/-- `likelihood_radiomap.cpp` 39-46: `hasSufficientMeasurementsForMutation`. -/
def sufficientForMutation (cfg : Cfg) (level : Level) (msr : List RadioData) : Option Bool :=
  (validMsr cfg level msr).map (fun v => decide (v.length ≥ cfg.minMutation))

/-- `likelihood_radiomap.cpp` 48-55: `calcParticleWeight`. -/
noncomputable def particleWeight (x y : ℝ) (p : XYPoint) : ℝ :=
  let sqrDist := (x - p.x) * (x - p.x) + (y - p.y) * (y - p.y)
  1 ÷ (1 / 10 + Real.sqrt sqrDist)

/-- `likelihood_radiomap.cpp` 106-131: `calculateRadiomapPoint`. -/
noncomputable def radiomapPoint (cfg : Cfg) (levelId : String) (rm : Radiomap) (w : List (String × ℝ)) :
    Result (Option XYPoint) :=
  if !cfg.useTriangles then
    match Knn.calcKHeaviest cfg.sort rm w cfg.k with
    | none => .throws
    | some p => .ok (some p)
  else match StdMap.find? cfg.triangles levelId with
    | none => .ok none
    | some triangles =>
      if triangles.isEmpty then .ok none
      else match Knn.calcPositionInTriangle triangles rm w with
        | .ok p => .ok (some p)
        | .throws => .throws
        | .undefined => .undefined

/-- `likelihood_radiomap.cpp` 71-75 and 154-161: the point for the usable measurements. -/
noncomputable def pointFor (cfg : Cfg) (level : Level) (valid : List RadioData) : Result (Option XYPoint) :=
  match StdMap.find? cfg.radiomaps level.id with
  | none => .throws
  | some radiomap => radiomapPoint cfg level.id level.radiomap (Knn.calcRpWeightsKnn radiomap valid cfg.useDiffMode)

/-- `likelihood.h` 14: `MIN_WEIGHT_SUM_DOUBLE_EPSILON`. -/
noncomputable def minWeightSum : ℝ := 1 / 100000000

/-- `likelihood_radiomap.cpp` 87-103: weigh the particles and normalise. -/
noncomputable def weighAll (p : Option XYPoint) (particles : List Particle) : List ℝ :=
  let ws := particles.map (fun q => match p with
    | some p => particleWeight q.x q.y p
    | none => 0)
  let sum := ws.foldl (· + ·) 0
  if sum > minWeightSum then ws.map (· ÷ sum) else ws

/-- `likelihood_radiomap.cpp` 57-104: `calculateWeights`. -/
noncomputable def calculateWeights (cfg : Cfg) (level : Level) (msr : List RadioData) (particles : List Particle) :
    Result (List ℝ) :=
  match validMsr cfg level msr with
  | none => .throws
  | some valid =>
    if valid.length < cfg.minPosition then .ok (particles.map (fun _ => 1 ÷ (particles.length : ℝ)))
    else match pointFor cfg level valid with
      | .throws => .throws
      | .undefined => .undefined
      | .ok p => .ok (weighAll p particles)

/-- `likelihood_radiomap.cpp` 145-163: `doPreliminaryCalculations`; the state is `mLikelihoodPoint`. -/
noncomputable def prepare (cfg : Cfg) (point : Option XYPoint) (level : Level) (msr : List RadioData) :
    Result (Option XYPoint) :=
  match validMsr cfg level msr with
  | none => .throws
  | some valid => if valid.length ≥ cfg.minPosition then pointFor cfg level valid else .ok point

/-- `likelihood_radiomap.cpp` 133-143: `calculateSamplingCenters`; the result is (centres, new state). -/
noncomputable def samplingCenters (cfg : Cfg) (point : Option XYPoint) (level : Level) (msr : List RadioData) :
    Result (List XYPoint × Option XYPoint) :=
  match prepare cfg point level msr with
  | .throws => .throws
  | .undefined => .undefined
  | .ok p => .ok (p.toList, p)

/-- `likelihood_radiomap.cpp` 165-173: `getWeight`. -/
noncomputable def getWeight (point : Option XYPoint) (x y : ℝ) : ℝ :=
  match point with
  | some p => particleWeight x y p
  | none => 0

/-- `likelihood_radiomap.cpp` 175-180: `getOnlyCorrectlyIntersectedMeasurements`. -/
def onlyCorrectlyIntersected (_ : Level) (msr : List RadioData) : List RadioData := msr

/-- `likelihood.cpp` 12-29: `isParticleInIntersectionArea`; `none`: `transmitter` throws. -/
noncomputable def inIntersectionArea (level : Level) (x y : ℝ) : List RadioData → Option Bool
  | [] => some true
  | m :: ms => match level.transmitter m.id with
    | none => none
    | some tx =>
      let dx := tx.point.x - x
      let dy := tx.point.y - y
      let modelValue := Real.sqrt (dx * dx + dy * dy)
      let delta := m.distance - modelValue
      open Classical in if delta < -(1 / 10000000) then some false else inIntersectionArea level x y ms

end Verif.Likelihood
