import Verif.Standalone.CfProgModel
import Verif.Arith

/-!
# Model of the example program of the stand-alone complementary filter: `standalone_algorithms/complementary_filter/examples/main.cpp`

The random numbers are parameters. The two files that the program writes are lists of records; the times are exact sums.
-/

namespace Verif.Standalone.Cf

open Verif Verif.Pedo Verif.Fusion

/-- 31-33: one entry of `times`, `thetas` and `thetaVels`. -/
structure Swing where
  time : ℝ
  theta : ℝ
  thetaVel : ℝ

/-- 38-43: the samples of the pendulum held still, and the value of `t` after the loop; `n` is the number of samples left. -/
noncomputable def staticLoop (tick theta0 : ℝ) : ℕ → ℝ → List Swing × ℝ
  | 0, t => ([], t)
  | n + 1, t =>
    let r := staticLoop tick theta0 n (t + tick)
    (⟨t, theta0, 0⟩ :: r.1, r.2)

/-- 46-57: the samples of the pendulum that swings. -/
noncomputable def dynamicLoop (tick L theta0 : ℝ) : ℕ → ℝ → ℝ → List Swing
  | 0, _, _ => []
  | n + 1, t, thetaPrev =>
    let theta := theta0 * Real.cos (root (G ÷ L) * t)
    let thetaVel := (theta - thetaPrev) ÷ tick
    ⟨t, theta, thetaVel⟩ :: dynamicLoop tick L theta0 n (t + tick) theta

/-- 23-60: `simulatePendulumMotion`; a loop `for (int i = 0; i < x; i++)` has `⌈x⌉` passes. -/
noncomputable def simulatePendulumMotion (durationStaticSec durationDynamicSec freqHz L theta0 : ℝ) : List Swing :=
  let tick := 1.0 ÷ freqHz
  let (still, t) := staticLoop tick theta0 ⌈durationStaticSec ÷ tick⌉₊ 0
  still ++ dynamicLoop tick L theta0 ⌈durationDynamicSec ÷ tick⌉₊ t theta0

/-- 85, 102, 115: the time stamp; the conversion to `long long` drops the fractional part. -/
noncomputable def swingTs (s : Swing) : Int := ⌊(1583315232492 : ℝ) + 1000 * s.time⌋

/-- 81-87: an accelerometer measurement; `noise` are the three numbers of the normal distribution. -/
noncomputable def swingAccel (L : ℝ) (s : Swing) (noise : Vector3d) : Measurement :=
  ⟨.ACCELEROMETER, swingTs s, ⟨-G * Real.sin s.theta + noise.x, 0.0 + noise.y,
    -L * s.thetaVel ^ 2 + G * Real.cos s.theta + noise.z⟩⟩

/-- 98-104: a gyroscope measurement. -/
noncomputable def swingGyro (s : Swing) (noise : Vector3d) : Measurement :=
  ⟨.GYROSCOPE, swingTs s, ⟨0.0 + noise.x, s.thetaVel + noise.y, 0.0 + noise.z⟩⟩

/-- 111-117: a magnetometer measurement. -/
noncomputable def swingMagn (s : Swing) : Measurement :=
  ⟨.MAGNETOMETER, swingTs s, ⟨MAGNETIC_FLUX_DENSITY * Real.cos (MAGNETIC_FIELD_INCLINATION + s.theta), 0.0,
    MAGNETIC_FLUX_DENSITY * Real.sin (MAGNETIC_FIELD_INCLINATION + s.theta)⟩⟩

/-- 62-122: `generateImuPendulum`, the three lists as one list of triples; `accelNoise` and `gyroNoise` are the random numbers drawn
for each sample (the frequency only sets their variance). -/
noncomputable def generateImuPendulum (L : ℝ) (accelNoise gyroNoise : ℕ → Vector3d) (l : List Swing) :
    List (Measurement × Measurement × Measurement) :=
  l.mapIdx (fun i s => (swingAccel L s (accelNoise i), swingGyro s (gyroNoise i), swingMagn s))

/-- 149-152: a line of `simulation.log`. -/
structure SimulationLine where
  ts : Int
  theta : ℝ
  accel : Vector3d
  gyro : Vector3d
  magn : Vector3d

/-- 170: a line of `calculated_angles.log`. -/
structure AnglesLine where
  ts : Int
  roll : ℝ
  pitch : ℝ
  yaw : ℝ

/-- 137-172: `main` after the simulation, as the lines of the two files. -/
noncomputable def pendulumFiles (junk1 junk2 : SensorType) (accelNoise gyroNoise : ℕ → Vector3d) (swings : List Swing) :
    List SimulationLine × List AnglesLine :=
  let measurements := generateImuPendulum 1 accelNoise gyroNoise swings
  (List.zipWith (fun s (m : Measurement × Measurement × Measurement) =>
      ⟨m.1.ts, s.theta, m.1.values, m.2.1.values, m.2.2.values⟩) swings measurements,
   List.zipWith (fun (m : Measurement × Measurement × Measurement) ori => ⟨m.1.ts, ori.roll, ori.pitch, ori.yaw⟩)
     measurements (orientationLoop (init junk1 junk2) measurements))

/-- 124-176: `main`. -/
noncomputable def pendulumMain (junk1 junk2 : SensorType) (accelNoise gyroNoise : ℕ → Vector3d) :
    List SimulationLine × List AnglesLine :=
  pendulumFiles junk1 junk2 accelNoise gyroNoise (simulatePendulumMotion 10 10 100 1.0 (Real.pi / 60.0))

end Verif.Standalone.Cf
