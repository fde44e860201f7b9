import Verif.Standalone.CfModel

/-!
# Model of the programs of the stand-alone complementary filter: `standalone_algorithms/complementary_filter/{tests,examples}`

Line numbers refer to `tests/complementary_filter_test.cpp`. The random numbers are parameters. The pendulum of the example
program is in `PendulumModel`; the loop over the measurements is the same in both programs (`examples/main.cpp` 161-171).
-/

namespace Verif.Standalone.Cf

open Verif Verif.Pedo Verif.Fusion

/-- 15: `G`. -/
noncomputable def G : ℝ := 9.81

/-- 13: `MAGNETIC_FLUX_DENSITY`. -/
noncomputable def MAGNETIC_FLUX_DENSITY : ℝ := 0.48

/-- 14: `MAGNETIC_FIELD_INCLINATION`. -/
noncomputable def MAGNETIC_FIELD_INCLINATION : ℝ := 60.48 * Real.pi / 180

/-- 26-32: the time of the `i`-th sample, at 100 Hz. -/
def sampleTs (i : ℕ) : Int := 1583315232492 + 10 * i

/-- 34-49: the `i`-th accelerometer measurement; `noise` are the three numbers of the normal distribution. -/
noncomputable def tiltedAccel (tiltPitch : ℝ) (noise : Vector3d) (i : ℕ) : Measurement :=
  ⟨.ACCELEROMETER, sampleTs i, ⟨-G * Real.sin tiltPitch + noise.x, 0.0 + noise.y, G * Real.cos tiltPitch + noise.z⟩⟩

/-- 51-66: the `i`-th gyroscope measurement. -/
noncomputable def tiltedGyro (noise : Vector3d) (i : ℕ) : Measurement :=
  ⟨.GYROSCOPE, sampleTs i, ⟨0.0 + noise.x, 0.0 + noise.y, 0.0 + noise.z⟩⟩

/-- 68-79: the `i`-th magnetometer measurement. -/
noncomputable def tiltedMagn (tiltPitch : ℝ) (i : ℕ) : Measurement :=
  ⟨.MAGNETOMETER, sampleTs i, ⟨MAGNETIC_FLUX_DENSITY * Real.cos (MAGNETIC_FIELD_INCLINATION + tiltPitch), 0.0,
    MAGNETIC_FLUX_DENSITY * Real.sin (MAGNETIC_FIELD_INCLINATION + tiltPitch)⟩⟩

/-- 17-82: `getTiltedImuMeasurements`, the three lists as one list of triples; `n` is the number of samples
(`durationStaticSec / tick`, rounded up), `accelNoise` and `gyroNoise` the random numbers drawn for each sample. -/
noncomputable def getTiltedImuMeasurements (n : ℕ) (tiltPitch : ℝ) (accelNoise gyroNoise : ℕ → Vector3d) :
    List (Measurement × Measurement × Measurement) :=
  (List.range n).map (fun i => (tiltedAccel tiltPitch (accelNoise i) i, tiltedGyro (gyroNoise i) i, tiltedMagn tiltPitch i))

/-- 97-106: the loop, as the list of the orientations asked for. -/
noncomputable def orientationLoop (complementaryFilter : State) :
    List (Measurement × Measurement × Measurement) → List Orientation
  | [] => []
  | (accelMsr, gyroMsr, magnMsr) :: rest =>
    let f := update defaultGains complementaryFilter accelMsr
    let f := update defaultGains f gyroMsr
    let f := update defaultGains f magnMsr
    getFusedOrientation f :: orientationLoop f rest

/-- 95-106: the orientation that the test checks. -/
noncomputable def staticTiltOrientation (junk1 junk2 : SensorType) (n : ℕ) (tiltPitch : ℝ) (accelNoise gyroNoise : ℕ → Vector3d) :
    Orientation :=
  ((orientationLoop (init junk1 junk2) (getTiltedImuMeasurements n tiltPitch accelNoise gyroNoise)).getLast?).getD ⟨0, 0, 0, 0⟩

end Verif.Standalone.Cf
