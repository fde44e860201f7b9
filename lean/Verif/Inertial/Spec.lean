import Verif.Nav.Spec

/-!
# Specification for C117: what the inertial sensors can change
-/

namespace Verif.Inertial

open Verif Verif.Levels Verif.Nav

/-- Messages of the gyroscope, the magnetometer and the orientation sensor, and of a barometer that is not used. -/
inductive TurnSensor (cs : CommonSettings) : SensorType → Prop
  | gyroscope : TurnSensor cs .GYROSCOPE
  | magnetometer : TurnSensor cs .MAGNETOMETER
  | orientation : TurnSensor cs .ORIENTATION
  | barometer (h : cs.useBarometer = false) : TurnSensor cs .BAROMETER

/-- The same, and the accelerometer. -/
inductive MotionSensor (cs : CommonSettings) : SensorType → Prop
  | turn {t : SensorType} (h : TurnSensor cs t) : MotionSensor cs t
  | accelerometer : MotionSensor cs .ACCELEROMETER

/-- The messages are the same, or two messages of the same time from sensors of the given types (which may be different
types, and may say anything). -/
def SameBut (P : SensorType → Prop) (m m' : Measurement) : Prop :=
  m = m' ∨ ∃ d d', m.data = .sensor d ∧ m'.data = .sensor d' ∧ P d.type ∧ P d'.type ∧ m.ts = m'.ts

/-- An output without the orientation. -/
def unturned (o : Output) : Output := { o with posOrientation := none }

/-- What an answer says about the place: the output without the orientation, and the two positions of the debug state. -/
def placeOf (o : Output × DebugState) : Output × Geo.XYPoint × Geo.XYPoint :=
  (unturned o.1, o.2.indoorPosition, o.2.outdoorPosition)

end Verif.Inertial
