import Verif.Same.Client
import Verif.Nav.KnnExample
import Verif.Nav.Safety

/-!
# C130: which settings matter
-/

namespace Verif.Same

open Verif Verif.Levels Verif.Nav
open Verif.Knn (Result)
open Verif.Knn.Witness2 (lvl)

variable {a b : CommonSettings}

/-- **C130.** Two clients whose settings agree in what matters (`Agree`) give the same answers: the same outputs and debugging
information, or both throw, or both are undefined, for every building, every history of calls and messages.  The settings per level
matter only without fingerprints. -/
theorem C130_same_answers (h : Agree a b) (env : Env) (levels : LevelCollector) (p q : List (String × Estim.LevelSettings))
    (hl : a.useAlgorithm ≠ .KNN → q = p) (g : Garbage) (calls : List (List Measurement)) :
    answers env levels b q g calls = answers env levels a p g calls :=
  answers_same h env levels p q hl g calls

/-- Every client agrees with itself. -/
theorem agree_refl (a : CommonSettings) : Agree a a := by constructor <;> simp

/-- **C130.** The eighteen settings that no client reads. -/
theorem C130_never_read (a : CommonSettings) (k n1 n2 n3 n4 n5 n6 n7 : ℕ) (r1 r2 r3 r4 r5 : ℝ) (b1 b2 b3 b4 b5 : Bool) (env : Env)
    (levels : LevelCollector) (p : List (String × Estim.LevelSettings)) (g : Garbage) (calls : List (List Measurement)) :
    answers env levels { a with
        kNeighbors := k, numParticles := n1, minMsrNumForMutation := n2, minNumParticlesAlive := n3, numParticlesAroundClosestAp := n4,
        numParticlesToMutate := n5, numSamplingAttempts := n6, numInitializationAttempts := n7,
        lklCorrectionNoise := r1, minDeviationM := r2, resamplingThreshold := r3, gyroNoiseDegree := r4, stepNoiseDeviationMeters := r5,
        useDifferentionMode := b1, useProjectionToWhiteArea := b2, useUniformSampling := b3, hasAccelerometer := b4, hasGyroscope := b5 }
      p g calls = answers env levels a p g calls :=
  C130_same_answers (by constructor <;> simp [FloorsByPrints]) env levels p p (fun _ => rfl) g calls

/-- **C130, finding.** There are two algorithms, not five: the default one (particle filter with dead reckoning), the other particle
filter, zones and graph all give the same answers. -/
theorem C130_algorithms (a : CommonSettings) (x y : UseAlgorithm) (hx : x ≠ .KNN) (hy : y ≠ .KNN) (env : Env) (levels : LevelCollector)
    (p : List (String × Estim.LevelSettings)) (g : Garbage) (calls : List (List Measurement)) :
    answers env levels { a with useAlgorithm := x } p g calls = answers env levels { a with useAlgorithm := y } p g calls :=
  C130_same_answers (by constructor <;> simp [hx, hy, FloorsByPrints]) env levels p p (fun _ => rfl) g calls

/-- **C130, finding.** Without the fusion with satellites, the preference of the indoor position, the border and age for the fusion, the
mean speed and the prior deviation do nothing; the same is not true for a fix outdoors, which is reported whatever `useGps` is. -/
theorem C130_without_gps (a : CommonSettings) (ha : a.useGps = false) (b1 b2 : Bool) (r1 r2 r3 r4 : ℝ) (env : Env)
    (levels : LevelCollector) (p : List (String × Estim.LevelSettings)) (g : Garbage) (calls : List (List Measurement)) :
    answers env levels { a with
        preferIndoorSolution := b1, fuseGps := b2, fuseGpsBorderM := r1, positionIsTooOldSec := r2, averageMovSpeed := r3, priorDeviation := r4 }
      p g calls = answers env levels a p g calls :=
  C130_same_answers (by constructor <;> simp [ha, FloorsByPrints]) env levels p p (fun _ => rfl) g calls

/-! ## Non-vacuity -/

/-- The settings of the example of C113, and others that differ in eleven places. -/
noncomputable def otherSettings : CommonSettings :=
  { printSettings with
    numParticles := 3, hasGyroscope := false, kNeighbors := 1, fuseGps := true, priorDeviation := 7, graphProjDist := 1, stopUpdateTime := 9,
    sigmaFilterWindow := 40, numClosestAps := 2, noActionTimeThreshold := 7, wiFiRttOffset := 12 }

theorem other_agrees : Agree printSettings otherSettings := by
  constructor <;> simp [otherSettings, printSettings, FloorsByPrints]

/-- Non-vacuity: the client and the signals of C113's example, which are located, with the other settings and other level settings. -/
example (g : Garbage) : ∃ s outs, navigateAll printCfg (init printCfg g) [printSignals] = .ok (s, outs) ∧
    answers printEnv (collect [lvl]) otherSettings [("lvl", ⟨1, 2⟩)] g [printSignals] = .ok outs := by
  obtain ⟨s, outs, h, -⟩ := C79_total printClient g [printSignals]
  obtain ⟨p, hp⟩ := printClient.built
  refine ⟨s, outs, h, ?_⟩
  rw [C130_same_answers other_agrees printEnv (collect [lvl]) p _ (by simp [printSettings])]
  unfold answers
  have hp' : mkCfg printEnv (collect [lvl]) printSettings p = some printCfg := hp
  rw [hp']
  dsimp only
  rw [h]

end Verif.Same
