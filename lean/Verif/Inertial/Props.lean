import Verif.Inertial.Lemmas
import Verif.Nav.Examples

/-!
# C117: what the inertial sensors can change
-/

namespace Verif.Inertial

open Verif Verif.Levels Verif.Nav
open Verif.Knn (Result)

theorem records_like {P : SensorType → Prop} {b b' : List Measurement} (h : List.Forall₂ (SameBut P) b b') :
    List.Forall₂ (SameBut P) (records b) (records b') := by
  cases h with
  | nil => exact .nil
  | @cons m m' ms ms' hm hms =>
    have hts : m.ts = m'.ts := by
      rcases hm with rfl | ⟨_, _, _, _, _, _, e⟩
      · rfl
      · exact e
    rw [records_eq, records_eq, hts]
    exact accepted_like (.cons hm hms) _

theorem taken_like {P : SensorType → Prop} {bs bs' : List (List Measurement)} (h : List.Forall₂ (List.Forall₂ (SameBut P)) bs bs') :
    List.Forall₂ (SameBut P) (taken bs) (taken bs') := by
  induction h with
  | nil => exact .nil
  | @cons b b' bs bs' hb _ ih => exact List.rel_append (records_like hb) ih

/-- **C117.** What gyroscope, magnetometer and orientation sensor say, and an unused barometer, changes nothing but the
reported orientation: two sessions that differ only there have the same outputs, the orientation apart, and the same
debug states. -/
theorem C117_turn {ls : List Level} {c : Cfg} (hc : Client ls c) (g : Garbage) (batches batches' : List (List Measurement))
    (h : List.Forall₂ (List.Forall₂ (SameBut (TurnSensor c.cs))) batches batches') :
    ∃ s outs s' outs', navigateAll c (init c g) batches = .ok (s, outs) ∧ navigateAll c (init c g) batches' = .ok (s', outs') ∧
      outs.map (fun o => (unturned o.1, o.2)) = outs'.map (fun o => (unturned o.1, o.2)) := by
  have hA : ¬ TurnSensor c.cs .ACCELEROMETER := by rintro ⟨⟩
  have hP : Harmless c.cs (TurnSensor c.cs) := ⟨by rintro ⟨⟩, by rintro ⟨⟩; assumption⟩
  obtain ⟨r, outs, r', outs', e1, e2, -, e4, e5⟩ := runs_like hc hP (Or.inl hA) (taken_like h) (inv_init hc g) (inv_init hc g) (like_refl _ _)
  refine ⟨r, outs, r', outs', by rw [navigateAll_eq]; exact e1, by rw [navigateAll_eq]; exact e2, ?_⟩
  have h1 : outs.map (fun o => unturned o.1) = outs'.map (fun o => unturned o.1) := by
    have := congrArg (List.map Prod.fst) e4
    rw [List.map_map, List.map_map] at this
    exact this
  have h2 := e5 hA
  clear e1 e2 e4 e5
  induction outs generalizing outs' with
  | nil =>
    cases outs' with
    | nil => rfl
    | cons _ _ => cases h1
  | cons o outs ih =>
    cases outs' with
    | nil => cases h1
    | cons o' outs' =>
      simp only [List.map_cons, List.cons.injEq] at h1 h2 ⊢
      exact ⟨by rw [h1.1, h2.1], ih _ h1.2 h2.2⟩

/-- **C117.** Without the detection of stops (and with a positive no-action threshold, which has no other effect, C81) what
the accelerometer says does not change any place either: two sessions that differ only in messages of the accelerometer and
of the sensors of `C117_turn` report the same statuses, levels, places, altitudes, radii and providers, and the same
positions in the debug states. -/
theorem C117_place {ls : List Level} {c : Cfg} (hc : Client ls c) (hs : c.cs.useStops = false)
    (ha : 0 < c.cs.noActionTimeThreshold) (g : Garbage) (batches batches' : List (List Measurement))
    (h : List.Forall₂ (List.Forall₂ (SameBut (MotionSensor c.cs))) batches batches') :
    ∃ s outs s' outs', navigateAll c (init c g) batches = .ok (s, outs) ∧ navigateAll c (init c g) batches' = .ok (s', outs') ∧
      outs.map placeOf = outs'.map placeOf := by
  have hP : Harmless c.cs (MotionSensor c.cs) := by
    refine ⟨?_, ?_⟩
    · intro h; cases h with | turn h => cases h
    · intro h; cases h with | turn h => cases h; assumption
  have ha' : 0 < c.noAction := by rw [hc.parts.noAction]; omega
  obtain ⟨r, outs, r', outs', e1, e2, -, e4, -⟩ := runs_like hc hP (Or.inr ⟨hs, ha'⟩) (taken_like h) (inv_init hc g) (inv_init hc g) (like_refl _ _)
  exact ⟨r, outs, r', outs', by rw [navigateAll_eq]; exact e1, by rw [navigateAll_eq]; exact e2, e4⟩

/-! ## Concrete sessions -/

/-- A message of the orientation sensor. -/
noncomputable def exTurn (a : ℝ) : Measurement := ⟨.sensor ⟨.ORIENTATION, ⟨a, 0, 0⟩⟩, 1000⟩

/-- A message of the gyroscope. -/
noncomputable def exGyro (a : ℝ) : Measurement := ⟨.sensor ⟨.GYROSCOPE, ⟨a, 0, 0⟩⟩, 1000⟩

/-- Non-vacuity: a fix followed by a message of the orientation sensor, or of the gyroscope; and by a message of the
accelerometer, with the default settings. -/
example (a b : ℝ) : Client [exLevel] exCfg ∧ exCfg.cs.useStops = false ∧ 0 < exCfg.cs.noActionTimeThreshold ∧
    List.Forall₂ (List.Forall₂ (SameBut (TurnSensor exCfg.cs))) [[exFix], [exTurn a]] [[exFix], [exGyro b]] ∧
    List.Forall₂ (List.Forall₂ (SameBut (MotionSensor exCfg.cs))) [[exFix], [exTurn a]] [[exFix], [exAccel 1000]] := by
  refine ⟨exClient, rfl, by change (0 : Int) < 20; norm_num,
    .cons (.cons (Or.inl rfl) .nil) (.cons (.cons (Or.inr ⟨_, _, rfl, rfl, .orientation, .gyroscope, rfl⟩) .nil) .nil),
    .cons (.cons (Or.inl rfl) .nil) (.cons (.cons (Or.inr ⟨_, _, rfl, rfl, .turn .orientation, .accelerometer, rfl⟩) .nil) .nil)⟩

/-- **C117, the orientation.** What these messages can change is the orientation, and it does: after a fix a message of the
orientation sensor is answered with status OK and the orientation it says. -/
theorem C117_orientation (a : ℝ) : ∃ s o o', navigateAll exCfg (init exCfg (exMemory .ACCELEROMETER)) [[exFix], [exTurn a]] =
    .ok (s, [o, o']) ∧ o'.1.status = .OK ∧ o'.1.posOrientation = some (Fusion.toMinusPiPi a) := by
  obtain ⟨s, o, dbg, h1, h2, -⟩ := ex_fix .ACCELEROMETER
  have hall : navigateAll exCfg (init exCfg (exMemory .ACCELEROMETER)) [[exFix]] = .ok (s, [(o, dbg)]) := by
    unfold navigateAll
    rw [h1]
    rfl
  have hrec : records [exFix] = [exFix] := records_ordered _ (by simp [Ordered])
  have htk : taken [[exFix]] = [exFix] := by simp [taken, hrec]
  have hsil : Silent [exLevel] exCfg.cs (taken [[exFix]]) (exTurn a) :=
    fun e he hh => absurd hh (ex_not_heard (by rw [htk]; simp [exFix, exTurn]) e he)
  have hp : s.position.isEmpty = false := ((C63_outputs exClient _ _ hall).2 (o, dbg) rfl).mp h2
  obtain ⟨s', o', dbg', f, info, g1, g2, g3⟩ := C80_orientation exClient _ _ hall (exTurn a)
  have hall2 : navigateAll exCfg (init exCfg (exMemory .ACCELEROMETER)) [[exFix], [exTurn a]] = .ok (s', [(o, dbg), (o', dbg')]) := by
    unfold navigateAll
    rw [h1]
    simp only [andThen]
    unfold navigateAll
    rw [g1]
    rfl
  have hok : o'.status = .OK := by
    obtain ⟨s2, out, dbg2, x, l, k1, hst, -, -, -, -, hcase⟩ := silent_step exClient (history_traced exClient hall) hsil
    rw [g1] at k1
    simp only [Result.ok.injEq, Prod.mk.injEq, List.cons.injEq, and_true] at k1
    rw [k1.2.1]
    rcases (stepped_shows exClient hst).1 with ⟨he, -⟩ | ⟨-, hok, -⟩
    · rcases hcase with ⟨k2, k3, -⟩ | ⟨-, k3, -⟩
      · rw [k3, k2] at he; cases he
      · rw [k3, hp] at he; cases he
    · exact hok
  refine ⟨s', (o, dbg), (o', dbg'), hall2, hok, ?_⟩
  rw [(g3 hok).2.1 hsil]
  congr 2
  have hl : lastSensor (exMemory .ACCELEROMETER).sensor (taken [[exFix]] ++ [exTurn a]) = ⟨⟨.ORIENTATION, ⟨a, 0, 0⟩⟩, 1000⟩ := by
    rw [lastSensor_snoc]
    rfl
  rw [hl] at g2
  unfold Fusion.calculateDisplacement at g2
  cases k1 : Pedo.update s.fusion.pedometer ⟨⟨.ORIENTATION, ⟨a, 0, 0⟩⟩, 1000⟩ with
  | none => rw [k1] at g2; cases g2
  | some ped =>
    rw [k1] at g2
    dsimp only at g2
    cases k2 : Pedo.calculateSteps ped with
    | none => rw [k2] at g2; cases g2
    | some q =>
      rw [k2] at g2
      have hc0 : exCfg.fusion.useCalcAzimuth = false := rfl
      have hout : Fusion.isDeviceAzimuthOutdated exCfg.fusion.cf
          (Fusion.cfUpdate exCfg.fusion.cf s.fusion.filter ⟨⟨.ORIENTATION, ⟨a, 0, 0⟩⟩, 1000⟩) = false := by
        unfold Fusion.isDeviceAzimuthOutdated Fusion.cfUpdate
        dsimp only
        rw [if_neg]
        have : exCfg.fusion.cf.lifetime = 10 := rfl
        rw [this]
        norm_num
      simp only [hc0, Bool.false_eq_true, if_false, hout, if_true] at g2
      have hd : (Fusion.cfUpdate exCfg.fusion.cf s.fusion.filter ⟨⟨.ORIENTATION, ⟨a, 0, 0⟩⟩, 1000⟩).deviceAzimuth = a := rfl
      rw [hd] at g2
      split_ifs at g2
      · simp only [Option.some.injEq, Prod.mk.injEq] at g2; rw [← g2.2]
      · simp only [Option.some.injEq, Prod.mk.injEq] at g2; rw [← g2.2]

end Verif.Inertial
