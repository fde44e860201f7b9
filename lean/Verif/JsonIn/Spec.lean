import Verif.JsonIn.Model

/-!
# Specification of settings files and measurement logs
-/

namespace Verif.JsonIn

/-- `j` is the number `x`. -/
def NumberIs (j : Json) (x : ℝ) : Prop := (∃ n : Int, j = .int n ∧ x = n) ∨ j = .real x

/-- Reading `j` as an integer type: integers are taken modulo `size`, booleans count as 0 and 1,
of a floating point number the integer part (towards zero) is taken. -/
def IntegerPart (size : ℕ) (j : Json) (k : Int) : Prop :=
  (∃ n : Int, j = .int n ∧ k ≡ n [ZMOD size]) ∨
  (∃ b : Bool, j = .bool b ∧ k = if b then 1 else 0) ∨
  (∃ x : ℝ, j = .real x ∧ |(k : ℝ)| ≤ |x| ∧ |x - k| < 1 ∧ 0 ≤ x * k)

/-- One entry of the table of settings: the key in the file, the default and the member of
`CommonSettings`. -/
inductive Field where
  | flag (key : String) (dflt : Bool) (get : CommonSettings → Bool)
  | number (key : String) (dflt : ℝ) (get : CommonSettings → ℝ)
  | limit (key : String) (dflt : EReal) (get : CommonSettings → EReal)
  | count (key : String) (dflt : ℕ) (get : CommonSettings → ℕ)
  | integer (key : String) (dflt : Int) (get : CommonSettings → Int)
  | algorithm (key : String) (dflt : UseAlgorithm) (get : CommonSettings → UseAlgorithm)
  | measurementType (key : String) (dflt : MeasurementType) (get : CommonSettings → MeasurementType)
  | signals (key : String) (dflt : SignalsToUse) (get : CommonSettings → SignalsToUse)

/-- The key of a setting. -/
def Field.key : Field → String
  | .flag k _ _ | .number k _ _ | .limit k _ _ | .count k _ _ | .integer k _ _ | .algorithm k _ _
  | .measurementType k _ _ | .signals k _ _ => k

/-- The setting has its default value. -/
def Field.IsDefault (s : CommonSettings) : Field → Prop
  | .flag _ d get => get s = d
  | .number _ d get => get s = d
  | .limit _ d get => get s = d
  | .count _ d get => get s = d
  | .integer _ d get => get s = d
  | .algorithm _ d get => get s = d
  | .measurementType _ d get => get s = d
  | .signals _ d get => get s = d

/-- The JSON values of the right type for a setting: `true`/`false` for flags, numbers for
quantities, booleans too for integer quantities, anything for the enumerations. -/
def Field.Accepts (j : Json) : Field → Prop
  | .flag .. => ∃ b, j = .bool b
  | .number .. | .limit .. => ∃ x, NumberIs j x
  | .count .. | .integer .. => (∃ x, NumberIs j x) ∨ ∃ b, j = .bool b
  | .algorithm .. | .measurementType .. | .signals .. => True

/-- The names of the algorithms in a settings file. -/
def algorithmName : UseAlgorithm → String
  | .PF_PDR => "PF_PDR" | .PF_NOPDR => "PF_NOPDR" | .ZONES => "ZONES" | .GRAPH => "GRAPH" | .KNN => "KNN"

/-- The names of the kinds of measurement in a settings file. -/
def measurementTypeName : MeasurementType → String
  | .RSSI => "rssi" | .DISTANCE_V1 => "distance_v1" | .DISTANCE_V2 => "distance_v2"

/-- The names of the signals in a settings file. -/
def signalsName : SignalsToUse → String
  | .BLE => "ble" | .WIFI => "wifi" | .BOTH => "both"

/-- `j` names `a`, or it names nothing and `a` is the fallback. -/
def Named {α : Type} (name : α → String) (fallback : α) (j : Json) (a : α) : Prop :=
  j = .str (name a) ∨ (∀ b, j ≠ .str (name b)) ∧ a = fallback

/-- The setting has the value `j` of the file. -/
def Field.IsSetTo (j : Json) (s : CommonSettings) : Field → Prop
  | .flag _ _ get => j = .bool (get s)
  | .number _ _ get => NumberIs j (get s)
  | .limit _ _ get => ∃ x : ℝ, NumberIs j x ∧ get s = x
  | .count _ _ get => IntegerPart (2 ^ 32) j (get s) ∧ get s < 2 ^ 32
  | .integer _ _ get => IntegerPart (2 ^ 64) j (get s) ∧ -2 ^ 63 ≤ get s ∧ get s < 2 ^ 63
  | .algorithm _ _ get => Named algorithmName .PF_PDR j (get s)
  | .measurementType _ _ get => Named measurementTypeName .RSSI j (get s)
  | .signals _ _ get => Named signalsName .BLE j (get s)

/-- The settings a file can set, with their defaults. -/
noncomputable def settingsTable : List Field := [
  .algorithm "Use_algorithm" .PF_PDR (·.useAlgorithm),
  .number "Correction_noise" 10 (·.lklCorrectionNoise),
  .flag "Use_enu_azimuth" false (·.useEnuAzimuth),
  .flag "Differention_mode" false (·.useDifferentionMode),
  .flag "Use_beacon_power" false (·.useTxPower),
  .flag "Use_radiomap" false (·.useRadiomap),
  .flag "Use_stops" false (·.useStops),
  .flag "Use_tracking" false (·.useTracking),
  .number "Stop_detection_time" 3 (·.stopDetectionTime),
  .number "Min_deviation_m" 1 (·.minDeviationM),
  .number "Average_speed" 1 (·.averageMovSpeed),
  .measurementType "Measurement_type" .RSSI (·.measurementType),
  .flag "Use_best_ref_point_level" false (·.useBestRefPointLevel),
  .flag "Use_barometer" false (·.useBarometer),
  .flag "Use_unknown_beacons" false (·.useUnknownTransmitters),
  .number "Cutoff_rss" (-100) (·.sigCutOffRss),
  .flag "Use_closest_aps" false (·.useClosestAps),
  .count "N_closest_aps" 1 (·.numClosestAps),
  .number "Sig_averaging_time" 1 (·.sigAveragingTime),
  .number "Sig_window_shift" 0 (·.sigWindowShift),
  .signals "Use_Signals" .BLE (·.signalsToUse),
  .count "N_particles" 1000 (·.numParticles),
  .count "Min_msr_num_for_mutation" 3 (·.minMsrNumForMutation),
  .number "Resampling_threshold_num" 600 (·.resamplingThreshold),
  .count "Min_num_of_particles" 100 (·.minNumParticlesAlive),
  .number "Gyro_noise_degree" 4 (·.gyroNoiseDegree),
  .number "Step_noise_deviation_meters" (2 / 5) (·.stepNoiseDeviationMeters),
  .flag "Use_projection_to_white_area" false (·.useProjectionToWhiteArea),
  .count "N_particles_around_closest_AP" 10 (·.numParticlesAroundClosestAp),
  .count "N_particles_to_mutate" 50 (·.numParticlesToMutate),
  .count "Num_sampling_attempts" 60 (·.numSamplingAttempts),
  .count "Num_initialization_attempts" 500 (·.numInitializationAttempts),
  .flag "Use_uniform_sampling" false (·.useUniformSampling),
  .count "K" 8 (·.kNeighbors),
  .flag "Use_triangles" true (·.useTriangles),
  .flag "Use_diff_mode" true (·.useDiffMode),
  .count "Min_num_of_measurements_for_position_calculation" 4 (·.minNumOfMeasurementsForPositionCalculation),
  .number "Smoothing" (1 / 2) (·.smoothing),
  .number "Dead_reckon_time" 5 (·.deadReckoningTime),
  .number "Stop_update_time" 4 (·.stopUpdateTime),
  .number "Graph_prog_distance" 5 (·.graphProjDist),
  .number "Stopped_distance_threshold_m" 10 (·.useStopsDistanceThresholdM),
  .flag "Use_smoothing" true (·.useSmoothing),
  .flag "Use_graph_projection" false (·.useGraphProjection),
  .flag "Use_accuracy_for_smoothing" false (·.useAccuracyForSmoothing),
  .flag "Use_speed_constraint" true (·.useSpeedConstraint),
  .flag "Use_barriers" false (·.useBarriers),
  .flag "Use_time_smoothing" false (·.useTimeSmoothing),
  .flag "Use_ab_filter" true (·.useAbFilter),
  .flag "Use_gps" false (·.useGps),
  .flag "Use_instant_gps_position" false (·.useInstantGpsPosition),
  .flag "Prefer_indoor_solution" false (·.preferIndoorSolution),
  .flag "Fuse_gps" false (·.fuseGps),
  .flag "Use_gps_outside_map" false (·.useGpsOutsideMap),
  .flag "Use_gps_sigma_filter" false (·.useGpsSigmaFilter),
  .count "Sigma_filter_window" 1 (·.sigmaFilterWindow),
  .number "Sigma_filter_delta" 0 (·.sigmaFilterDelta),
  .count "Min_num_sats" 20 (·.minNumSats),
  .number "Prior_deviation" 50 (·.priorDeviation),
  .number "Gps_deviation" 5 (·.minGpsDeviation),
  .limit "Maximum_to_accept_gps_measurement" ⊤ (·.maxGpsDeviation),
  .number "Fuse_gps_border_m" 10 (·.fuseGpsBorderM),
  .number "Position_old_for_fusing_sec" 20 (·.positionIsTooOldSec),
  .number "Gps_valid_time_window_sec" 1 (·.gpsValidTimeWindowSec),
  .flag "Use_calculated_azimuth" false (·.useCalculatedAzimuth),
  .number "Device_azimuth_lifetime_seconds" 10 (·.deviceAzimuthLifetimeSeconds),
  .number "Step_multiplier" 1 (·.stepMultiplier),
  .flag "Has_accelerometer" true (·.hasAccelerometer),
  .flag "Has_gyroscope" true (·.hasGyroscope),
  .integer "No_signal_time_threshold" 35 (·.noSignalTimeThreshold),
  .integer "No_action_time_threshold" 20 (·.noActionTimeThreshold),
  .number "WiFi_RTT_Offset" (-3 / 2) (·.wiFiRttOffset)]

/-- Some member of the list names a setting and has a value of the wrong type for it. -/
def HasBad (l : List (String × Json)) : Prop :=
  ∃ m ∈ l, ∃ f ∈ settingsTable, f.key = m.1 ∧ ¬ f.Accepts m.2

/-! ### The settings of the levels -/

/-- An entry of `level_settings`: an object with the members `level`, the identifier, and `settings`,
an array whose first element has the given members. -/
def LevelEntry (j : Json) (e : String × List (String × Json)) : Prop :=
  ∃ o rest, j = .obj o ∧ StdMap.find? o "level" = some (.str e.1) ∧
    StdMap.find? o "settings" = some (.arr (.obj e.2 :: rest))

open Classical in
/-- The settings of a level with the given members: `A` is the member `A` if it is a number, else -82;
`B` is the member `B` if it is a number, else 3, but 3 also if `A` is there and not a number. -/
def LevelIs (members : List (String × Json)) (s : Estim.LevelSettings) : Prop :=
  (∀ v, ("A", v) ∈ members → if ∃ x, NumberIs v x then NumberIs v s.normalModeA else
    s.normalModeA = -82 ∧ s.normalModeB = 3) ∧
  ((∀ v, ("A", v) ∉ members) → s.normalModeA = -82) ∧
  ((∀ v, ("A", v) ∈ members → ∃ x, NumberIs v x) →
    ∀ v, ("B", v) ∈ members → if ∃ x, NumberIs v x then NumberIs v s.normalModeB else s.normalModeB = 3) ∧
  ((∀ v, ("B", v) ∉ members) → s.normalModeB = 3)

/-! ### Measurement logs -/

/-- The number of a kind of sensor measurement in a log. -/
def sensorCode : SensorType → Int
  | .ACCELEROMETER => 101 | .GYROSCOPE => 102 | .MAGNETOMETER => 103 | .BAROMETER => 104
  | .ORIENTATION => 105 | .LOCATION => 106

/-- The number of a kind of radio measurement in a log. -/
def radioCode : RadioType → Int
  | .WIFI => 201 | .BLUETOOTH => 202 | .BEACON => 203 | .EDDYSTONE => 204 | .WIFI_RTT => 205

/-- A member that may be left out; it then counts as zero. -/
def OptionalNumber (o : List (String × Json)) (key : String) (x : ℝ) : Prop :=
  (∃ v, StdMap.find? o key = some v ∧ NumberIs v x) ∨ StdMap.find? o key = none ∧ x = 0

/-- The JSON object `j` describes the measurement `m`; members other than those named here are free. -/
def Describes (j : Json) (m : Measurement) : Prop :=
  ∃ o, j = .obj o ∧ StdMap.find? o "timestamp" = some (.int m.ts) ∧ -2 ^ 63 ≤ m.ts ∧ m.ts < 2 ^ 63 ∧
  match m.data with
  | .sensor d => StdMap.find? o "type" = some (.int (sensorCode d.type)) ∧
      ∃ a b c, StdMap.find? o "values" = some (.arr [a, b, c]) ∧
        NumberIs a d.values.x ∧ NumberIs b d.values.y ∧ NumberIs c d.values.z
  | .radio d => StdMap.find? o "type" = some (.int (radioCode d.type)) ∧ StdMap.find? o "bssid" = some (.str d.id) ∧
      OptionalNumber o "rssi" d.rssi ∧ OptionalNumber o "distance" d.distance ∧ d.power = 0 ∧ d.stddev = 0
  | .nmea d => StdMap.find? o "type" = some (.int 300) ∧
      StdMap.find? o "sentence_number" = some (.int d.sentenceNumber) ∧
      StdMap.find? o "num_sats" = some (.int d.satellitesNumber) ∧
      -2 ^ 31 ≤ d.sentenceNumber ∧ d.sentenceNumber < 2 ^ 31 ∧ -2 ^ 31 ≤ d.satellitesNumber ∧ d.satellitesNumber < 2 ^ 31

/-- `m` is the measurement of an Eddystone transmitter. -/
def IsEddystone (m : Measurement) : Prop := ∃ d, m.data = .radio d ∧ d.type = .EDDYSTONE

end Verif.JsonIn
