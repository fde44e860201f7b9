import Verif.Footprint.GrowProps
import Verif.Floors.Props
import Verif.Track.Example
import Verif.Mixed.Example
import Verif.Stand.AnswerSpec

/-!
# C135, C136: a history with one step
-/

namespace Verif.Stand

open Verif.Levels Verif.Nav Verif.Floors Verif.Footprint
open Verif.Knn (Result)
open Verif.Pedo (acc accelOf pedoRun fusionOps)

/-- Up to three accelerometer samples bring no step. -/
theorem short_accel (l : List SensorMeasurement) : ∀ t (w : List (List Pedo.Step)), (accelOf l).length ≤ 3 →
    pedoRun (fusionOps l) = some (t, w) → w.flatten = [] := by
  induction l using List.reverseRecOn with
  | nil => intro t w _ h; cases h; rfl
  | append_singleton l m ih =>
    intro t w hl h
    have hle : (accelOf l).length ≤ (accelOf (l ++ [m])).length := by
      unfold accelOf; rw [List.filter_append, List.length_append]; omega
    obtain ⟨t0, w0, e1, -, e3, e4⟩ := Pedo.run_inv (fusionOps l)
    have hw0 := ih t0 w0 (by omega) e1
    obtain ⟨t1, u1⟩ : ∃ t1, Pedo.update t0 m = some t1 := by
      unfold Pedo.update
      by_cases hm : m.data.type = SensorType.ACCELEROMETER
      · simp only [hm, if_true]
        obtain ⟨v, r, q, -⟩ := Pedo.push_spec { t0 with magSize := max t0.mags.length 1 } m
        exact ⟨_, q⟩
      · simp only [hm, if_false]
        exact ⟨_, rfl⟩
    have hb := (Pedo.buf_run (fusionOps l ++ [.sample m]) t1 (w0 ++ [[]]) (by
      unfold pedoRun at e1 ⊢
      rw [List.foldlM_append, e1]
      simp [Pedo.pedoRecord, Pedo.pedoStep, u1, List.foldlM])).mags.length_le
    have hsmall : t1.mags.length ≤ 3 := by
      have hs : (Pedo.samples (fusionOps l ++ [Pedo.PedoOp.sample m])).length ≤ 3 := by
        have : Pedo.samples (fusionOps l ++ [Pedo.PedoOp.sample m]) = accelOf l ++ Pedo.opSamples (.sample m) := by
          rw [← Pedo.samples_fusion]
          simp [Pedo.samples]
        rw [this, List.length_append]
        unfold accelOf at hl
        rw [List.filter_append, List.length_append] at hl
        have : (Pedo.opSamples (.sample m)).length = (List.filter (fun x => decide (x.data.type = .ACCELEROMETER)) [m]).length := by
          dsimp only [Pedo.opSamples]
          split_ifs with h <;> simp [h]
        unfold accelOf
        omega
      simp only [List.length_map] at hb
      omega
    have hc : Pedo.calculateSteps t1 = some (t1, []) := by
      unfold Pedo.calculateSteps
      rw [if_pos hsmall]
    rw [Pedo.run_snoc l m t0 t1 t1 w0 [] e1 u1 hc] at h
    cases h
    simp [hw0]

/-- Three samples at rest after no sample at all, then a strong one: a step. -/
theorem late_step (P : List SensorMeasurement) (hP : accelOf P = []) {s s' : Pedo.PedoState} {outs : List (List Pedo.Step)} {o : List Pedo.Step}
    (h1 : pedoRun (fusionOps (P ++ [acc 1000 0, acc 1250 0, acc 1500 0])) = some (s, outs))
    (h2 : pedoRun (fusionOps (P ++ [acc 1000 0, acc 1250 0, acc 1500 0] ++ [acc 1750 10])) = some (s', outs ++ [[], o])) : o ≠ [] := by
  have hA : accelOf (P ++ [acc 1000 0, acc 1250 0, acc 1500 0]) = [] ++ [acc 1000 0, acc 1250 0, acc 1500 0] := by
    unfold accelOf at hP ⊢
    rw [List.filter_append, hP]
    simp [acc]
  have hord : Pedo.Ordered (accelOf (P ++ [acc 1000 0, acc 1250 0, acc 1500 0]) ++ [acc 1750 10]) := by
    rw [hA]
    simp [Pedo.Ordered, acc]
  obtain ⟨s2, o2, k2, k3, -⟩ := Pedo.C77_detect _ (acc 1750 10) _ _ _ _ hA rfl hord (by rw [hA]; simp [acc])
    (by simp [acc]) s outs h1
  rw [h2, Option.some.injEq, Prod.mk.injEq] at k2
  have ho := (List.append_inj' k2.2 rfl).2
  simp only [List.cons.injEq, and_true, true_and] at ho
  rw [ho]
  have hflat : outs.flatten = [] := short_accel _ s outs (by rw [hA]; simp) h1
  rw [k3, hflat, hA]
  have m0 : ∀ ts, Pedo.magnitude (acc ts 0).data.values = 0 := fun ts => Pedo.magnitude_acc ts 0 (le_refl _)
  have m1 : Pedo.magnitude (acc 1750 10).data.values = 10 := Pedo.magnitude_acc 1750 10 (by norm_num)
  refine ⟨?_, ?_, ?_⟩
  · have e : Pedo.filteredValue ([] ++ [acc 1000 0, acc 1250 0]) (acc 1500 0) = 0 := by
      have w1 : Pedo.within (acc 1500 0).ts 200 ([] ++ [acc 1000 0, acc 1250 0] ++ [acc 1500 0]) = [acc 1500 0] := by
        simp [Pedo.within, acc]
      have w2 : Pedo.within (acc 1500 0).ts 2500 ([] ++ [acc 1000 0, acc 1250 0] ++ [acc 1500 0]) =
          [acc 1000 0, acc 1250 0, acc 1500 0] := by
        simp [Pedo.within, acc]
      simp only [Pedo.filteredValue, w1, w2, Pedo.meanMagn, List.map_cons, List.map_nil, m0]
      simp
    rw [e]
    unfold Pedo.threshold
    norm_num
  · have e : Pedo.filteredValue ([] ++ [acc 1000 0, acc 1250 0, acc 1500 0]) (acc 1750 10) = 5 := by
      have w1 : Pedo.within (acc 1750 10).ts 200 ([] ++ [acc 1000 0, acc 1250 0, acc 1500 0] ++ [acc 1750 10]) =
          [acc 1750 10] := by
        simp [Pedo.within, acc]
      have w2 : Pedo.within (acc 1750 10).ts 2500 ([] ++ [acc 1000 0, acc 1250 0, acc 1500 0] ++ [acc 1750 10]) =
          [acc 1000 0, acc 1250 0, acc 1500 0, acc 1750 10] := by
        simp [Pedo.within, acc]
      simp only [Pedo.filteredValue, w1, w2, Pedo.meanMagn, List.map_cons, List.map_nil, m0, m1]
      simp only [List.length_cons, List.length_nil, List.sum_cons, List.sum_nil]
      norm_num
    rw [e]
    unfold Pedo.threshold
    norm_num
  · simp [Pedo.lastStepTs, acc]

/-- A pressure. -/
noncomputable def pressureAt (t : Int) : Measurement := ⟨.sensor ⟨.BAROMETER, ⟨1000, 0, 0⟩⟩, t⟩

/-- A pressure, two signals of one beacon, three samples at rest. -/
noncomputable def arrival : List Measurement :=
  [pressureAt 50, sig "tx" 100, sig "tx" 700, accMessage 1000 0, accMessage 1250 0, accMessage 1500 0]

/-- Then a step, a pressure, and two more signals of different beacons with much time between. -/
noncomputable def visit : List Measurement :=
  arrival ++ [accMessage 1750 10, pressureAt 1751, sig "ty" 12800, sig "tx" 17000]

theorem step_none {c : Cfg} {g : Garbage} {ms : List Measurement} {m : Measurement} {s : State} {outs : List (Output × DebugState)}
    {r : Output × DebugState} (h : runs c (init c g) (ms ++ [m]) = .ok (s, outs ++ [r]))
    (hb : (lastSensor g.sensor (ms ++ [m])).data.type ≠ .ACCELEROMETER ∨
      (accelOf ((fedSensors g.sensor ms).map Prod.fst ++ [lastSensor g.sensor (ms ++ [m])])).length ≤ 3) : r.2.stepCounter = 0 := by
  obtain ⟨p, pouts, p', oo, k1, k2, k3⟩ := counter_step h
  rcases hb with hb | hb
  · obtain ⟨p2, k4⟩ := Pedo.C77_other _ (lastSensor g.sensor (ms ++ [m])) hb p pouts k1
    rw [k2, Option.some.injEq, Prod.mk.injEq] at k4
    have := (List.append_inj' k4.2 rfl).2
    simp only [List.cons.injEq, and_true, true_and] at this
    rw [k3, if_pos this]
  · have := short_accel _ _ _ hb k2
    rw [List.flatten_append, List.append_eq_nil_iff] at this
    have := this.2
    simp only [List.flatten_cons, List.flatten_nil, List.nil_append, List.append_nil] at this
    rw [k3, if_pos this]

/-- Only the seventh message of the visit brings a step. -/
theorem visit_steps {c : Cfg} {g : Garbage} {s : State} {outs : List (Output × DebugState)}
    (h : runs c (init c g) visit = .ok (s, outs)) :
    stepsOf outs = [false, false, false, false, false, false, true, false, false, false] := by
  have split : ∀ (ms : List Measurement) (m : Measurement) {s : State} {o : List (Output × DebugState)},
      runs c (init c g) (ms ++ [m]) = .ok (s, o) → ∃ s1 o1 r, runs c (init c g) ms = .ok (s1, o1) ∧ o = o1 ++ [r] ∧
        runs c (init c g) (ms ++ [m]) = .ok (s, o1 ++ [r]) := by
    intro ms m s o h
    obtain ⟨s1, o1, r, h1, -, rfl⟩ := runs_snoc h
    exact ⟨s1, o1, r, h1, rfl, h⟩
  obtain ⟨s9, o9, r9, h9, e9, g9⟩ := split (arrival ++ [accMessage 1750 10, pressureAt 1751, sig "ty" 12800]) (sig "tx" 17000) h
  obtain ⟨s8, o8, r8, h8, e8, g8⟩ := split (arrival ++ [accMessage 1750 10, pressureAt 1751]) (sig "ty" 12800) h9
  obtain ⟨s7, o7, r7, h7, e7, g7⟩ := split (arrival ++ [accMessage 1750 10]) (pressureAt 1751) h8
  obtain ⟨s6, o6, r6, h6, e6, g6⟩ := split arrival (accMessage 1750 10) h7
  obtain ⟨s5, o5, r5, h5, e5, g5⟩ := split [pressureAt 50, sig "tx" 100, sig "tx" 700, accMessage 1000 0, accMessage 1250 0] (accMessage 1500 0) h6
  obtain ⟨s4, o4, r4, h4, e4, g4⟩ := split [pressureAt 50, sig "tx" 100, sig "tx" 700, accMessage 1000 0] (accMessage 1250 0) h5
  obtain ⟨s3, o3, r3, h3, e3, g3⟩ := split [pressureAt 50, sig "tx" 100, sig "tx" 700] (accMessage 1000 0) h4
  obtain ⟨s2, o2, r2, h2, e2, g2⟩ := split [pressureAt 50, sig "tx" 100] (sig "tx" 700) h3
  obtain ⟨s1, o1, r1, h1, e1, g1⟩ := split [pressureAt 50] (sig "tx" 100) h2
  obtain ⟨s0, o0, r0, h0, e0, g0⟩ := split [] (pressureAt 50) h1
  have z0 : o0 = [] := by cases h0; rfl
  have b : ∀ t, (pressureAt t).data = .sensor ⟨.BAROMETER, ⟨1000, 0, 0⟩⟩ := fun _ => rfl
  have hP : ((fedSensors g.sensor [pressureAt 50, sig "tx" 100, sig "tx" 700]).map Prod.fst) =
      [⟨⟨.BAROMETER, ⟨1000, 0, 0⟩⟩, 50⟩, ⟨⟨.BAROMETER, ⟨1000, 0, 0⟩⟩, 50⟩, ⟨⟨.BAROMETER, ⟨1000, 0, 0⟩⟩, 50⟩] := rfl
  have t0 := step_none g0 (.inl (by change SensorType.BAROMETER ≠ _; decide))
  have t1 := step_none g1 (.inl (by change SensorType.BAROMETER ≠ _; decide))
  have t2 := step_none g2 (.inl (by change SensorType.BAROMETER ≠ _; decide))
  have t3 := step_none g3 (.inr (by
    have e : (fedSensors g.sensor [pressureAt 50, sig "tx" 100, sig "tx" 700]).map Prod.fst ++
        [lastSensor g.sensor ([pressureAt 50, sig "tx" 100, sig "tx" 700] ++ [accMessage 1000 0])] =
        [⟨⟨.BAROMETER, ⟨1000, 0, 0⟩⟩, 50⟩, ⟨⟨.BAROMETER, ⟨1000, 0, 0⟩⟩, 50⟩, ⟨⟨.BAROMETER, ⟨1000, 0, 0⟩⟩, 50⟩, acc 1000 0] := rfl
    rw [e]; simp [accelOf, acc]))
  have t4 := step_none g4 (.inr (by
    have e : (fedSensors g.sensor [pressureAt 50, sig "tx" 100, sig "tx" 700, accMessage 1000 0]).map Prod.fst ++
        [lastSensor g.sensor ([pressureAt 50, sig "tx" 100, sig "tx" 700, accMessage 1000 0] ++ [accMessage 1250 0])] =
        [⟨⟨.BAROMETER, ⟨1000, 0, 0⟩⟩, 50⟩, ⟨⟨.BAROMETER, ⟨1000, 0, 0⟩⟩, 50⟩, ⟨⟨.BAROMETER, ⟨1000, 0, 0⟩⟩, 50⟩, acc 1000 0, acc 1250 0] := rfl
    rw [e]; simp [accelOf, acc]))
  have t5 := step_none g5 (.inr (by
    have e : (fedSensors g.sensor [pressureAt 50, sig "tx" 100, sig "tx" 700, accMessage 1000 0, accMessage 1250 0]).map Prod.fst ++
        [lastSensor g.sensor ([pressureAt 50, sig "tx" 100, sig "tx" 700, accMessage 1000 0, accMessage 1250 0] ++ [accMessage 1500 0])] =
        [⟨⟨.BAROMETER, ⟨1000, 0, 0⟩⟩, 50⟩, ⟨⟨.BAROMETER, ⟨1000, 0, 0⟩⟩, 50⟩, ⟨⟨.BAROMETER, ⟨1000, 0, 0⟩⟩, 50⟩, acc 1000 0, acc 1250 0,
          acc 1500 0] := rfl
    rw [e]; simp [accelOf, acc]))
  have t7 := step_none g7 (.inl (by change SensorType.BAROMETER ≠ _; decide))
  have t8 := step_none g8 (.inl (by change SensorType.BAROMETER ≠ _; decide))
  have t9 := step_none g9 (.inl (by change SensorType.BAROMETER ≠ _; decide))
  have t6 : 0 < r6.2.stepCounter := by
    obtain ⟨p, pouts, p', oo, k1, k2, k3⟩ := counter_step g6
    have e : (fedSensors g.sensor arrival).map Prod.fst =
        [⟨⟨.BAROMETER, ⟨1000, 0, 0⟩⟩, 50⟩, ⟨⟨.BAROMETER, ⟨1000, 0, 0⟩⟩, 50⟩, ⟨⟨.BAROMETER, ⟨1000, 0, 0⟩⟩, 50⟩] ++
          [acc 1000 0, acc 1250 0, acc 1500 0] := rfl
    have e' : lastSensor g.sensor (arrival ++ [accMessage 1750 10]) = acc 1750 10 := rfl
    rw [e] at k1 k2
    rw [e'] at k2
    have hne := late_step _ (by simp [accelOf]) k1 k2
    rw [k3, if_neg hne]
    have := List.length_pos_iff.mpr hne
    omega
  rw [e9, e8, e7, e6, e5, e4, e3, e2, e1, e0, z0]
  simp [stepsOf, t0, t1, t2, t3, t4, t5, t6, t7, t8, t9]

end Verif.Stand
