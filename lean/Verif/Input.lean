import Mathlib.Data.Real.Basic
import Mathlib.Data.String.Basic

/-!
# Model of the public input types: `include/navigine/navigation-core/navigation_input.h`, `vector3d.h`
-/

namespace Verif

/-- `vector3d.h` 14-35: `struct Vector3d`. -/
structure Vector3d where
  x : ℝ
  y : ℝ
  z : ℝ

/-- `navigation_input.h` 30-36. -/
inductive RadioType where
  | WIFI | BEACON | BLUETOOTH | EDDYSTONE | WIFI_RTT
  deriving DecidableEq

/-- `navigation_input.h` 28-44: `struct RadioMeasurementData`. -/
structure RadioData where
  type : RadioType
  id : String
  rssi : ℝ
  power : ℝ
  distance : ℝ
  stddev : ℝ

/-- `navigation_input.h` 48-55. -/
inductive SensorType where
  | ACCELEROMETER | MAGNETOMETER | GYROSCOPE | BAROMETER | LOCATION | ORIENTATION
  deriving DecidableEq

/-- `navigation_input.h` 46-59: `struct SensorMeasurementData`. -/
structure SensorData where
  type : SensorType
  values : Vector3d

/-- `navigation_input.h` 61-65: `struct NmeaMeasurementData`. -/
structure NmeaData where
  sentenceNumber : Int
  satellitesNumber : Int

/-- `navigation_input.h` 69: the `boost::variant` of the three kinds of measurement. -/
inductive MeasurementData where
  | radio (d : RadioData)
  | sensor (d : SensorData)
  | nmea (d : NmeaData)

/-- `navigation_input.h` 21-26: a value with a time stamp (milliseconds). -/
structure Stamped (D : Type) where
  data : D
  ts : Int

/-- `navigation_input.h` 71. -/
abbrev Measurement := Stamped MeasurementData

/-- `measurement_types.h`. -/
abbrev RadioMeasurement := Stamped RadioData
/-- `measurement_types.h`. -/
abbrev SensorMeasurement := Stamped SensorData
/-- `measurement_types.h`. -/
abbrev NmeaMeasurement := Stamped NmeaData

end Verif
