import Verif.Nav.Spec

/-!
# Specification for C130: which settings matter
-/

namespace Verif.Same

open Verif Verif.Levels Verif.Nav
open Verif.Knn (Result)

/-- What a user sees of a client: everything `navigate` returns in a number of calls, with the debugging information, or how it ended
otherwise.  (If the constructor throws, so does this.) -/
noncomputable def answers (env : Env) (levels : LevelCollector) (cs : CommonSettings) (perLevel : List (String × Estim.LevelSettings))
    (g : Garbage) (calls : List (List Measurement)) : Result (List (Output × DebugState)) :=
  match mkCfg env levels cs perLevel with
  | none => .throws
  | some c =>
    match navigateAll c (init c g) calls with
    | .ok r => .ok r.2
    | .throws => .throws
    | .undefined => .undefined

/-- Floors are found by fingerprints. -/
def FloorsByPrints (cs : CommonSettings) : Prop := cs.useRadiomap = true ∨ cs.useAlgorithm = .KNN

/-- The two settings agree in what matters.  A setting that is not named here never matters:

* `kNeighbors`, `lklCorrectionNoise`, `useDifferentionMode`, `minDeviationM`, `numParticles`, `minMsrNumForMutation`,
  `resamplingThreshold`, `minNumParticlesAlive`, `gyroNoiseDegree`, `stepNoiseDeviationMeters`, `useProjectionToWhiteArea`, `numParticlesAroundClosestAp`,
  `numParticlesToMutate`, `numSamplingAttempts`, `numInitializationAttempts`, `useUniformSampling`, `hasAccelerometer`,
  `hasGyroscope`. -/
structure Agree (a b : CommonSettings) : Prop where
  /-- of the five algorithms, only whether it is `KNN` -/
  algorithm : a.useAlgorithm = .KNN ↔ b.useAlgorithm = .KNN
  useRadiomap : a.useAlgorithm ≠ .KNN → b.useRadiomap = a.useRadiomap
  useBestRefPointLevel : FloorsByPrints a → b.useBestRefPointLevel = a.useBestRefPointLevel
  useTxPower : ¬ FloorsByPrints a → b.useTxPower = a.useTxPower
  useBarometer : b.useBarometer = a.useBarometer
  -- fingerprints
  useTriangles : a.useAlgorithm = .KNN → b.useTriangles = a.useTriangles
  useDiffMode : a.useAlgorithm = .KNN → a.useTriangles = true → b.useDiffMode = a.useDiffMode
  minMeasurements : a.useAlgorithm = .KNN →
    b.minNumOfMeasurementsForPositionCalculation = a.minNumOfMeasurementsForPositionCalculation
  -- signals
  /-- of the three types of measurement, only whether it is `RSSI` -/
  measurementType : a.measurementType = .RSSI ↔ b.measurementType = .RSSI
  sigCutOffRss : a.measurementType = .RSSI → b.sigCutOffRss = a.sigCutOffRss
  signalsToUse : b.signalsToUse = a.signalsToUse
  useUnknownTransmitters : b.useUnknownTransmitters = a.useUnknownTransmitters
  useTracking : a.useUnknownTransmitters = false → b.useTracking = a.useTracking
  useClosestAps : b.useClosestAps = a.useClosestAps
  numClosestAps : a.useClosestAps = true → b.numClosestAps = a.numClosestAps
  sigAveragingTime : b.sigAveragingTime = a.sigAveragingTime
  sigWindowShift : b.sigWindowShift = a.sigWindowShift
  wiFiRttOffset : a.useAltitude = true → b.wiFiRttOffset = a.wiFiRttOffset
  -- time-outs
  noSignalTimeThreshold : b.noSignalTimeThreshold = a.noSignalTimeThreshold
  /-- all positive ones are the same -/
  noActionTimeThreshold : b.noActionTimeThreshold = a.noActionTimeThreshold ∨
    (0 < a.noActionTimeThreshold ∧ 0 < b.noActionTimeThreshold)
  deadReckoningTime : b.deadReckoningTime = a.deadReckoningTime
  -- stops
  useStops : b.useStops = a.useStops
  stopDetectionTime : a.useStops = true → b.stopDetectionTime = a.stopDetectionTime
  stopUpdateTime : a.useStops = true → b.stopUpdateTime = a.stopUpdateTime
  stopsDistance : a.useStops = true → b.useStopsDistanceThresholdM = a.useStopsDistanceThresholdM
  -- smoothing
  useSmoothing : b.useSmoothing = a.useSmoothing
  useAbFilter : a.useSmoothing = true → b.useAbFilter = a.useAbFilter
  smoothing : a.useSmoothing = true → b.smoothing = a.smoothing
  useBarriers : a.useSmoothing = true → b.useBarriers = a.useBarriers
  useSpeedConstraint : a.useSmoothing = true → a.useAbFilter = true → b.useSpeedConstraint = a.useSpeedConstraint
  useAccuracyForSmoothing : a.useSmoothing = true → a.useAbFilter = true → b.useAccuracyForSmoothing = a.useAccuracyForSmoothing
  useTimeSmoothing : b.useTimeSmoothing = a.useTimeSmoothing
  -- graph
  useGraphProjection : b.useGraphProjection = a.useGraphProjection
  graphProjDist : a.useGraphProjection = true → b.graphProjDist = a.graphProjDist
  -- satellites
  useGps : b.useGps = a.useGps
  preferIndoorSolution : a.useGps = true → b.preferIndoorSolution = a.preferIndoorSolution
  positionIsTooOldSec : a.useGps = true → b.positionIsTooOldSec = a.positionIsTooOldSec
  averageMovSpeed : a.useGps = true → b.averageMovSpeed = a.averageMovSpeed
  priorDeviation : a.useGps = true → b.priorDeviation = a.priorDeviation
  fuseGps : a.useGps = true → b.fuseGps = a.fuseGps
  fuseGpsBorderM : a.useGps = true → a.fuseGps = true → b.fuseGpsBorderM = a.fuseGpsBorderM
  useInstantGpsPosition : b.useInstantGpsPosition = a.useInstantGpsPosition
  useGpsOutsideMap : b.useGpsOutsideMap = a.useGpsOutsideMap
  useGpsSigmaFilter : b.useGpsSigmaFilter = a.useGpsSigmaFilter
  sigmaFilterWindow : a.useGpsSigmaFilter = true → b.sigmaFilterWindow = a.sigmaFilterWindow
  sigmaFilterDelta : a.useGpsSigmaFilter = true → b.sigmaFilterDelta = a.sigmaFilterDelta
  minNumSats : b.minNumSats = a.minNumSats
  minGpsDeviation : b.minGpsDeviation = a.minGpsDeviation
  maxGpsDeviation : a.useGpsSigmaFilter = true → b.maxGpsDeviation = a.maxGpsDeviation
  gpsValidTimeWindowSec : b.gpsValidTimeWindowSec = a.gpsValidTimeWindowSec
  -- sensors and output
  useCalculatedAzimuth : b.useCalculatedAzimuth = a.useCalculatedAzimuth
  deviceAzimuthLifetimeSeconds : a.useCalculatedAzimuth = false → b.deviceAzimuthLifetimeSeconds = a.deviceAzimuthLifetimeSeconds
  stepMultiplier : b.stepMultiplier = a.stepMultiplier
  useEnuAzimuth : b.useEnuAzimuth = a.useEnuAzimuth
  useAltitude : b.useAltitude = a.useAltitude

end Verif.Same
