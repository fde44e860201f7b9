import Mathlib.Data.EReal.Basic

/-!
# Model of `include/navigine/navigation-core/navigation_settings.h`

`unsigned int` is `ℕ`, `double` is `ℝ`.
-/

namespace Verif

/-- `navigation_settings.h` 15. -/
inductive UseAlgorithm where
  | PF_PDR | PF_NOPDR | ZONES | GRAPH | KNN
  deriving DecidableEq

/-- `navigation_settings.h` 16. -/
inductive MeasurementType where
  | RSSI | DISTANCE_V1 | DISTANCE_V2
  deriving DecidableEq

/-- `navigation_settings.h` 17. -/
inductive SignalsToUse where
  | BLE | WIFI | BOTH
  deriving DecidableEq

/-- `navigation_settings.h` 14-106: `struct CommonSettings` with its defaults. -/
structure CommonSettings where
  useAlgorithm : UseAlgorithm := .PF_PDR
  lklCorrectionNoise : ℝ := 10
  useEnuAzimuth : Bool := false
  useDifferentionMode : Bool := false
  useTxPower : Bool := false
  useRadiomap : Bool := false
  useStops : Bool := false
  useTracking : Bool := false
  stopDetectionTime : ℝ := 3
  minDeviationM : ℝ := 1
  averageMovSpeed : ℝ := 1
  measurementType : MeasurementType := .RSSI
  useBestRefPointLevel : Bool := false
  useBarometer : Bool := false
  useUnknownTransmitters : Bool := false
  sigCutOffRss : ℝ := -100
  useClosestAps : Bool := false
  numClosestAps : ℕ := 1
  sigAveragingTime : ℝ := 1
  sigWindowShift : ℝ := 0
  signalsToUse : SignalsToUse := .BLE
  numParticles : ℕ := 1000
  minMsrNumForMutation : ℕ := 3
  resamplingThreshold : ℝ := 600
  minNumParticlesAlive : ℕ := 100
  gyroNoiseDegree : ℝ := 4
  stepNoiseDeviationMeters : ℝ := 2 / 5
  useProjectionToWhiteArea : Bool := false
  numParticlesAroundClosestAp : ℕ := 10
  numParticlesToMutate : ℕ := 50
  numSamplingAttempts : ℕ := 60
  numInitializationAttempts : ℕ := 500
  useUniformSampling : Bool := false
  kNeighbors : ℕ := 8
  useTriangles : Bool := true
  useDiffMode : Bool := true
  minNumOfMeasurementsForPositionCalculation : ℕ := 4
  smoothing : ℝ := 1 / 2
  deadReckoningTime : ℝ := 5
  stopUpdateTime : ℝ := 4
  graphProjDist : ℝ := 5
  useStopsDistanceThresholdM : ℝ := 10
  useSmoothing : Bool := true
  useGraphProjection : Bool := false
  useAccuracyForSmoothing : Bool := false
  useSpeedConstraint : Bool := true
  useBarriers : Bool := false
  useTimeSmoothing : Bool := false
  useAbFilter : Bool := true
  useGps : Bool := false
  useInstantGpsPosition : Bool := false
  preferIndoorSolution : Bool := false
  fuseGps : Bool := false
  useGpsOutsideMap : Bool := false
  useGpsSigmaFilter : Bool := false
  sigmaFilterWindow : ℕ := 1
  sigmaFilterDelta : ℝ := 0
  minNumSats : ℕ := 20
  minGpsDeviation : ℝ := 5
  maxGpsDeviation : EReal := ⊤
  fuseGpsBorderM : ℝ := 10
  priorDeviation : ℝ := 50
  noSignalTimeThreshold : Int := 35
  noActionTimeThreshold : Int := 20
  positionIsTooOldSec : ℝ := 20
  gpsValidTimeWindowSec : ℝ := 1
  useCalculatedAzimuth : Bool := false
  deviceAzimuthLifetimeSeconds : ℝ := 10
  stepMultiplier : ℝ := 1
  hasAccelerometer : Bool := true
  hasGyroscope : Bool := true
  wiFiRttOffset : ℝ := -3 / 2
  useAltitude : Bool := false

end Verif
