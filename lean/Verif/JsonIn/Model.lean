import Verif.Settings
import Verif.Input
import Verif.StdMap
import Verif.Knn.Model
import Verif.Estim.Model

/-!
# Model of the readers of settings files and measurement logs, `tools/verification/helpers.cpp`

The text of a file is taken as parsed by `nlohmann::json::parse`; the conversions from JSON values
to C++ values are those of nlohmann::json (`get_to`, `at`, `items`, `operator[]`).  Every exception
of nlohmann::json is `Result.throws`; `Result.undefined` is undefined behaviour.
-/

namespace Verif.JsonIn

open Verif.Knn (Result)

/-- A JSON value as `nlohmann::json` stores it: integers and floating point numbers are kept apart,
an object is a `std::map` (members ascending by key, see `WellFormed` in the specification). -/
inductive Json where
  | null
  | bool (b : Bool)
  | int (n : Int)
  | real (x : ℝ)
  | str (s : String)
  | arr (l : List Json)
  | obj (l : List (String × Json))

/-- `Result` as a functor: what follows a call that may throw. -/
def _root_.Verif.Knn.Result.map {α β : Type} (r : Result α) (f : α → β) : Result β :=
  match r with
  | .ok a => .ok (f a)
  | .throws => .throws
  | .undefined => .undefined

/-- `Result` as a monad: what follows a call that may throw. -/
def _root_.Verif.Knn.Result.bind {α β : Type} (r : Result α) (f : α → Result β) : Result β :=
  match r with
  | .ok a => f a
  | .throws => .throws
  | .undefined => .undefined

/-- `static_cast` of a floating point number to an integer type drops the fraction. -/
noncomputable def truncate (x : ℝ) : Int := if 0 ≤ x then ⌊x⌋ else ⌈x⌉

/-- `get_to(double&)`: any number; rounding of large integers is not modelled. -/
noncomputable def getDouble : Json → Result ℝ
  | .int n => .ok n
  | .real x => .ok x
  | _ => .throws

/-- `get_to(bool&)`: booleans only. -/
def getBool : Json → Result Bool
  | .bool b => .ok b
  | _ => .throws

/-- `get_to(unsigned int&)`: booleans and numbers; integers wrap around modulo 2^32, a floating
point number loses its fraction and must then be in range. -/
noncomputable def getUnsigned : Json → Result ℕ
  | .int n => .ok (n % 2 ^ 32).toNat
  | .bool b => .ok b.toNat
  | .real x => if 0 ≤ truncate x ∧ truncate x < 2 ^ 32 then .ok (truncate x).toNat else .undefined
  | _ => .throws

/-- `get_to` for a signed integer type with the given number of values (`2^32` for `int`, `2^64` for
`long long`, which is not `nlohmann::json::number_integer_t` on 64 bit Linux). -/
noncomputable def getSigned (size : ℕ) : Json → Result Int
  | .int n => .ok (Int.bmod n size)
  | .bool b => .ok b.toNat
  | .real x => if -(size : Int) ≤ 2 * truncate x ∧ 2 * truncate x < size then .ok (truncate x) else .undefined
  | _ => .throws

/-- `get_to(int&)`. -/
noncomputable def getInt : Json → Result Int := getSigned (2 ^ 32)

/-- `get_to(long long&)`. -/
noncomputable def getLongLong : Json → Result Int := getSigned (2 ^ 64)

/-- `get_to(std::string&)`. -/
def getString : Json → Result String
  | .str s => .ok s
  | _ => .throws

/-- The loop of `getDoubles` over the elements. -/
noncomputable def getDoublesAux : List Json → Result (List ℝ)
  | [] => .ok []
  | j :: js => (getDouble j).bind fun x => (getDoublesAux js).map fun xs => x :: xs

/-- `get_to(std::vector<double>&)`. -/
noncomputable def getDoubles : Json → Result (List ℝ)
  | .arr l => getDoublesAux l
  | _ => .throws

/-- `j.at(key)`. -/
def at' (j : Json) (key : String) : Result Json :=
  match j with
  | .obj l => match StdMap.find? l key with
    | some v => .ok v
    | none => .throws
  | _ => .throws

/-- `NLOHMANN_JSON_SERIALIZE_ENUM` over strings: the enumerator whose string equals the value, the
first enumerator for every other value. -/
def enumOfString {α : Type} (first : α) (table : List (α × String)) (j : Json) : Result α :=
  match j with
  | .str s => match table.find? (fun e => e.2 = s) with
    | some e => .ok e.1
    | none => .ok first
  | _ => .ok first

/-- `NLOHMANN_JSON_SERIALIZE_ENUM` over numbers: likewise; a floating point number equals an integer
of the same value. -/
noncomputable def enumOfInt {α : Type} (first : α) (table : List (α × Int)) (j : Json) : Result α :=
  match j with
  | .int n => match table.find? (fun e => e.2 = n) with
    | some e => .ok e.1
    | none => .ok first
  | .real x => match table.find? (fun e => (e.2 : ℝ) = x) with
    | some e => .ok e.1
    | none => .ok first
  | _ => .ok first

/-- `helpers.cpp` 21-26. -/
noncomputable def getRadioType : Json → Result RadioType :=
  enumOfInt .WIFI [(.WIFI, 201), (.BEACON, 203), (.BLUETOOTH, 202), (.WIFI_RTT, 205)]

/-- `helpers.cpp` 37-44. -/
noncomputable def getSensorType : Json → Result SensorType :=
  enumOfInt .ACCELEROMETER [(.ACCELEROMETER, 101), (.GYROSCOPE, 102), (.MAGNETOMETER, 103), (.BAROMETER, 104),
    (.LOCATION, 106), (.ORIENTATION, 105)]

/-- `helpers.cpp` 46-52. -/
def getAlgorithm : Json → Result UseAlgorithm :=
  enumOfString .PF_PDR [(.PF_PDR, "PF_PDR"), (.PF_NOPDR, "PF_NOPDR"), (.ZONES, "ZONES"), (.GRAPH, "GRAPH"), (.KNN, "KNN")]

/-- `helpers.cpp` 54-58. -/
def getMeasurementType : Json → Result MeasurementType :=
  enumOfString .RSSI [(.RSSI, "rssi"), (.DISTANCE_V1, "distance_v1"), (.DISTANCE_V2, "distance_v2")]

/-- `helpers.cpp` 60-64. -/
def getSignals : Json → Result SignalsToUse :=
  enumOfString .BLE [(.BLE, "ble"), (.WIFI, "wifi"), (.BOTH, "both")]

/-- `helpers.cpp` 67-75: a vector that has not three components leaves the zero vector
(`vector3d.h` 21). -/
noncomputable def sensorOfJson (j : Json) : Result SensorData :=
  (at' j "type").bind fun t => (getSensorType t).bind fun type =>
  (at' j "values").bind fun v => (getDoubles v).map fun values =>
  match values with
  | [x, y, z] => ⟨type, ⟨x, y, z⟩⟩
  | _ => ⟨type, ⟨0, 0, 0⟩⟩

/-- `helpers.cpp` 85-91: an optional member; `dflt` if it is missing. -/
noncomputable def optionalDouble (j : Json) (key : String) (dflt : ℝ) : Result ℝ :=
  match j with
  | .obj l => match StdMap.find? l key with
    | some v => getDouble v
    | none => .ok dflt
  | _ => .ok dflt

/-- `helpers.cpp` 77-92; defaults of `navigation_input.h` 40-43. -/
noncomputable def radioOfJson (j : Json) : Result RadioData :=
  (at' j "type").bind fun t => (getRadioType t).bind fun type =>
  (at' j "bssid").bind fun b => (getString b).bind fun id =>
  (optionalDouble j "rssi" 0).bind fun rssi =>
  (optionalDouble j "distance" 0).map fun distance =>
  ⟨type, id, rssi, 0, distance, 0⟩

/-- `helpers.cpp` 94-98. -/
noncomputable def nmeaOfJson (j : Json) : Result NmeaData :=
  (at' j "sentence_number").bind fun a => (getInt a).bind fun sentence =>
  (at' j "num_sats").bind fun b => (getInt b).map fun sats =>
  ⟨sentence, sats⟩

/-- The value-initialised `MeasurementData` (`navigation_input.h` 28-44, 69): the first alternative of
the variant, a Wi-Fi measurement of the empty identifier. -/
noncomputable def defaultData : MeasurementData := .radio ⟨.WIFI, "", 0, 0, 0, 0⟩

/-- `helpers.cpp` 100-113. -/
noncomputable def measurementOfJson (j : Json) : Result Measurement :=
  (at' j "timestamp").bind fun t => (getLongLong t).bind fun ts =>
  (at' j "type").bind fun y => (getInt y).bind fun msrType =>
  if msrType = 101 ∨ msrType = 102 ∨ msrType = 103 ∨ msrType = 104 ∨ msrType = 105 ∨ msrType = 106 then
    (sensorOfJson j).map fun d => ⟨.sensor d, ts⟩
  else if msrType = 201 ∨ msrType = 202 ∨ msrType = 203 ∨ msrType = 204 ∨ msrType = 205 then
    (radioOfJson j).map fun d => ⟨.radio d, ts⟩
  else if msrType = 300 then
    (nmeaOfJson j).map fun d => ⟨.nmea d, ts⟩
  else .ok ⟨defaultData, ts⟩

/-- `helpers.cpp` 314-331: `GetNavMessages`, on the lines of the file; `none`: a line that is not
JSON (`parse` throws).  A file that cannot be read has no lines. -/
noncomputable def getNavMessages : List (Option Json) → Result (List Measurement)
  | [] => .ok []
  | none :: _ => .throws
  | some j :: js => (measurementOfJson j).bind fun m => (getNavMessages js).map fun ms => m :: ms

/-- `helpers.cpp` 126-274: the chain of `else if (key == …)`, in its order. -/
noncomputable def setters : List (String × (Json → CommonSettings → Result CommonSettings)) := [
  ("Use_algorithm", fun j s => (getAlgorithm j).map fun v => { s with useAlgorithm := v }),
  ("Correction_noise", fun j s => (getDouble j).map fun v => { s with lklCorrectionNoise := v }),
  ("Use_enu_azimuth", fun j s => (getBool j).map fun v => { s with useEnuAzimuth := v }),
  ("Differention_mode", fun j s => (getBool j).map fun v => { s with useDifferentionMode := v }),
  ("Use_beacon_power", fun j s => (getBool j).map fun v => { s with useTxPower := v }),
  ("Use_radiomap", fun j s => (getBool j).map fun v => { s with useRadiomap := v }),
  ("Use_stops", fun j s => (getBool j).map fun v => { s with useStops := v }),
  ("Use_tracking", fun j s => (getBool j).map fun v => { s with useTracking := v }),
  ("Stop_detection_time", fun j s => (getDouble j).map fun v => { s with stopDetectionTime := v }),
  ("Min_deviation_m", fun j s => (getDouble j).map fun v => { s with minDeviationM := v }),
  ("Average_speed", fun j s => (getDouble j).map fun v => { s with averageMovSpeed := v }),
  ("Measurement_type", fun j s => (getMeasurementType j).map fun v => { s with measurementType := v }),
  ("Use_best_ref_point_level", fun j s => (getBool j).map fun v => { s with useBestRefPointLevel := v }),
  ("Use_barometer", fun j s => (getBool j).map fun v => { s with useBarometer := v }),
  ("Use_unknown_beacons", fun j s => (getBool j).map fun v => { s with useUnknownTransmitters := v }),
  ("Cutoff_rss", fun j s => (getDouble j).map fun v => { s with sigCutOffRss := v }),
  ("Use_closest_aps", fun j s => (getBool j).map fun v => { s with useClosestAps := v }),
  ("N_closest_aps", fun j s => (getUnsigned j).map fun v => { s with numClosestAps := v }),
  ("Sig_averaging_time", fun j s => (getDouble j).map fun v => { s with sigAveragingTime := v }),
  ("Sig_window_shift", fun j s => (getDouble j).map fun v => { s with sigWindowShift := v }),
  ("Use_Signals", fun j s => (getSignals j).map fun v => { s with signalsToUse := v }),
  ("N_particles", fun j s => (getUnsigned j).map fun v => { s with numParticles := v }),
  ("Min_msr_num_for_mutation", fun j s => (getUnsigned j).map fun v => { s with minMsrNumForMutation := v }),
  ("Resampling_threshold_num", fun j s => (getDouble j).map fun v => { s with resamplingThreshold := v }),
  ("Min_num_of_particles", fun j s => (getUnsigned j).map fun v => { s with minNumParticlesAlive := v }),
  ("Gyro_noise_degree", fun j s => (getDouble j).map fun v => { s with gyroNoiseDegree := v }),
  ("Step_noise_deviation_meters", fun j s => (getDouble j).map fun v => { s with stepNoiseDeviationMeters := v }),
  ("Use_projection_to_white_area", fun j s => (getBool j).map fun v => { s with useProjectionToWhiteArea := v }),
  ("N_particles_around_closest_AP", fun j s => (getUnsigned j).map fun v => { s with numParticlesAroundClosestAp := v }),
  ("N_particles_to_mutate", fun j s => (getUnsigned j).map fun v => { s with numParticlesToMutate := v }),
  ("Num_sampling_attempts", fun j s => (getUnsigned j).map fun v => { s with numSamplingAttempts := v }),
  ("Num_initialization_attempts", fun j s => (getUnsigned j).map fun v => { s with numInitializationAttempts := v }),
  ("Use_uniform_sampling", fun j s => (getBool j).map fun v => { s with useUniformSampling := v }),
  ("K", fun j s => (getUnsigned j).map fun v => { s with kNeighbors := v }),
  ("Use_triangles", fun j s => (getBool j).map fun v => { s with useTriangles := v }),
  ("Use_diff_mode", fun j s => (getBool j).map fun v => { s with useDiffMode := v }),
  ("Min_num_of_measurements_for_position_calculation", fun j s => (getUnsigned j).map fun v => { s with minNumOfMeasurementsForPositionCalculation := v }),
  ("Smoothing", fun j s => (getDouble j).map fun v => { s with smoothing := v }),
  ("Dead_reckon_time", fun j s => (getDouble j).map fun v => { s with deadReckoningTime := v }),
  ("Stop_update_time", fun j s => (getDouble j).map fun v => { s with stopUpdateTime := v }),
  ("Graph_prog_distance", fun j s => (getDouble j).map fun v => { s with graphProjDist := v }),
  ("Stopped_distance_threshold_m", fun j s => (getDouble j).map fun v => { s with useStopsDistanceThresholdM := v }),
  ("Use_smoothing", fun j s => (getBool j).map fun v => { s with useSmoothing := v }),
  ("Use_graph_projection", fun j s => (getBool j).map fun v => { s with useGraphProjection := v }),
  ("Use_accuracy_for_smoothing", fun j s => (getBool j).map fun v => { s with useAccuracyForSmoothing := v }),
  ("Use_speed_constraint", fun j s => (getBool j).map fun v => { s with useSpeedConstraint := v }),
  ("Use_barriers", fun j s => (getBool j).map fun v => { s with useBarriers := v }),
  ("Use_time_smoothing", fun j s => (getBool j).map fun v => { s with useTimeSmoothing := v }),
  ("Use_ab_filter", fun j s => (getBool j).map fun v => { s with useAbFilter := v }),
  ("Use_gps", fun j s => (getBool j).map fun v => { s with useGps := v }),
  ("Use_instant_gps_position", fun j s => (getBool j).map fun v => { s with useInstantGpsPosition := v }),
  ("Prefer_indoor_solution", fun j s => (getBool j).map fun v => { s with preferIndoorSolution := v }),
  ("Fuse_gps", fun j s => (getBool j).map fun v => { s with fuseGps := v }),
  ("Use_gps_outside_map", fun j s => (getBool j).map fun v => { s with useGpsOutsideMap := v }),
  ("Use_gps_sigma_filter", fun j s => (getBool j).map fun v => { s with useGpsSigmaFilter := v }),
  ("Sigma_filter_window", fun j s => (getUnsigned j).map fun v => { s with sigmaFilterWindow := v }),
  ("Sigma_filter_delta", fun j s => (getDouble j).map fun v => { s with sigmaFilterDelta := v }),
  ("Min_num_sats", fun j s => (getUnsigned j).map fun v => { s with minNumSats := v }),
  ("Prior_deviation", fun j s => (getDouble j).map fun v => { s with priorDeviation := v }),
  ("Gps_deviation", fun j s => (getDouble j).map fun v => { s with minGpsDeviation := v }),
  ("Maximum_to_accept_gps_measurement", fun j s => (getDouble j).map fun v => { s with maxGpsDeviation := (v : EReal) }),
  ("Fuse_gps_border_m", fun j s => (getDouble j).map fun v => { s with fuseGpsBorderM := v }),
  ("Position_old_for_fusing_sec", fun j s => (getDouble j).map fun v => { s with positionIsTooOldSec := v }),
  ("Gps_valid_time_window_sec", fun j s => (getDouble j).map fun v => { s with gpsValidTimeWindowSec := v }),
  ("Use_calculated_azimuth", fun j s => (getBool j).map fun v => { s with useCalculatedAzimuth := v }),
  ("Device_azimuth_lifetime_seconds", fun j s => (getDouble j).map fun v => { s with deviceAzimuthLifetimeSeconds := v }),
  ("Step_multiplier", fun j s => (getDouble j).map fun v => { s with stepMultiplier := v }),
  ("Has_accelerometer", fun j s => (getBool j).map fun v => { s with hasAccelerometer := v }),
  ("Has_gyroscope", fun j s => (getBool j).map fun v => { s with hasGyroscope := v }),
  ("No_signal_time_threshold", fun j s => (getLongLong j).map fun v => { s with noSignalTimeThreshold := v }),
  ("No_action_time_threshold", fun j s => (getLongLong j).map fun v => { s with noActionTimeThreshold := v }),
  ("WiFi_RTT_Offset", fun j s => (getDouble j).map fun v => { s with wiFiRttOffset := v })]

/-- `helpers.cpp` 124-276: one step of the loop over the keys: an unknown key is only reported. -/
noncomputable def setCommon (key : String) (j : Json) (s : CommonSettings) : Result CommonSettings :=
  match setters.find? (fun e => e.1 = key) with
  | some e => e.2 j s
  | none => .ok s

/-- `helpers.cpp` 287-311: one step of the loop over the keys of the settings of a level. -/
noncomputable def setLevel (key : String) (j : Json) (s : Estim.LevelSettings) : Result Estim.LevelSettings :=
  if key = "A" then (getDouble j).map fun v => { s with normalModeA := v }
  else if key = "B" then (getDouble j).map fun v => { s with normalModeB := v }
  else .ok s

/-- `helpers.cpp` 122-284, 294-310: the loop over the members in the order of their keys; an exception
ends the loop and is swallowed, what was set before stays. -/
def readMembers {S : Type} (set : String → Json → S → Result S) : List (String × Json) → S → Result S
  | [], s => .ok s
  | (k, v) :: l, s =>
    match set k v s with
    | .ok s' => readMembers set l s'
    | .throws => .ok s
    | .undefined => .undefined

/-- `helpers.cpp` 115-285: `get<CommonSettings>()`.  For a value that is not an object the keys are
indices (or empty), none of which is known. -/
noncomputable def commonOfJson : Json → Result CommonSettings
  | .obj l => readMembers setCommon l {}
  | _ => .ok {}

/-- `navigation_settings.h` 108-111: the defaults of `LevelSettings`. -/
noncomputable def defaultLevel : Estim.LevelSettings := ⟨-82, 3⟩

/-- `helpers.cpp` 287-311: `get<LevelSettings>()`. -/
noncomputable def levelOfJson : Json → Result Estim.LevelSettings
  | .obj l => readMembers setLevel l defaultLevel
  | _ => .ok defaultLevel

/-- `j[0]` on a `const nlohmann::json`: undefined behaviour for the empty array. -/
def constHead : Json → Result Json
  | .arr (j :: _) => .ok j
  | .arr [] => .undefined
  | _ => .throws

/-- `j[0]` on a `nlohmann::json` that is not `const`: an array is filled up with `null`, and `null`
becomes an array first. -/
def mutHead : Json → Result Json
  | .arr (j :: _) => .ok j
  | .arr [] => .ok .null
  | .null => .ok .null
  | _ => .throws

/-- The values a range-based `for` visits: the elements of an array, the values of an object,
nothing for `null`, the value itself otherwise. -/
def elements : Json → List Json
  | .arr l => l
  | .obj l => l.map Prod.snd
  | .null => []
  | j => [j]

/-- `navigation_settings.h` 114-118. -/
structure NavigationSettings where
  common : CommonSettings
  levels : List (String × Estim.LevelSettings)

/-- `helpers.cpp` 712-716: the loop over the settings of the levels. -/
noncomputable def readLevelSettings :
    List Json → List (String × Estim.LevelSettings) → Result (List (String × Estim.LevelSettings))
  | [], m => .ok m
  | j :: js, m =>
    (at' j "level").bind fun l => (getString l).bind fun id =>
    (at' j "settings").bind fun a => (constHead a).bind fun o => (levelOfJson o).bind fun s =>
    readLevelSettings js (StdMap.set m id s)

/-- `helpers.cpp` 696-723: `CreateSettingsFromJson`, with the error code.  `none`: the file cannot be
opened (25 is `ERROR_OPEN_FILE`, `navigation_error_codes.h` 17); `some none`: it is not JSON. -/
noncomputable def createSettingsFromJson (file : Option (Option Json)) : Result (NavigationSettings × Int) :=
  match file with
  | none => .ok (⟨{}, []⟩, 25)
  | some none => .throws
  | some (some j) =>
    (at' j "level_settings").bind fun ls => (readLevelSettings (elements ls) []).bind fun levels =>
    (at' j "common_settings").bind fun cs => (mutHead cs).bind fun o => (commonOfJson o).map fun common =>
    (⟨common, levels⟩, 0)

end Verif.JsonIn
