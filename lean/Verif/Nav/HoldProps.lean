import Verif.Nav.SensorProps
import Verif.Pedo.HoldProps

/-!
# The steps a client counts do not depend on how the device is held: C100
-/

namespace Verif.Nav

open Verif.Levels
open Verif.Knn (Result)
open Verif.Fusion (fusionRun MotionInfo)
open Verif.Pedo (Turned TurnedOp fusionOps pedoRun)

/-! ## Specification -/

/-- The same message, or a sensor message of the same time and sensor with a vector of the same length. -/
def TurnedMessage (m m' : Measurement) : Prop :=
  m = m' ∨ ∃ d d', m.data = .sensor d ∧ m'.data = .sensor d' ∧ Turned ⟨d, m.ts⟩ ⟨d', m'.ts⟩

/-! ## Proofs -/

theorem TurnedMessage.ts {m m' : Measurement} (h : TurnedMessage m m') : m.ts = m'.ts := by
  rcases h with rfl | ⟨d, d', -, -, ht⟩
  · rfl
  · exact ht.ts

theorem turned_refl (m : SensorMeasurement) : Turned m m := ⟨rfl, rfl, rfl⟩

theorem turned_ops {ms ms' : List SensorMeasurement} (h : List.Forall₂ Turned ms ms') :
    List.Forall₂ TurnedOp (fusionOps ms) (fusionOps ms') := by
  induction h with
  | nil => exact .nil
  | cons hm _ ih => exact .cons (.sample hm) (.cons .steps ih)

theorem turned_fusion (c : Fusion.FusionConfig) (j1 j2 : SensorType × Int)
    (zs : List ((SensorMeasurement × Int) × (SensorMeasurement × Int))) (h : ∀ z ∈ zs, Turned z.1.1 z.2.1) :
    ∃ s infos s' infos', fusionRun c j1 j2 (zs.map Prod.fst) = some (s, infos) ∧
      fusionRun c j1 j2 (zs.map Prod.snd) = some (s', infos') ∧
      infos.map (fun i => (i.stepCounter, i.distance)) = infos'.map (fun i => (i.stepCounter, i.distance)) := by
  induction zs using List.reverseRecOn with
  | nil => exact ⟨_, [], _, [], rfl, rfl, rfl⟩
  | append_singleton zs z ih =>
    obtain ⟨s, infos, s', infos', h1, h2, h3⟩ := ih (fun z hz => h z (List.mem_append_left _ hz))
    rw [List.map_append, List.map_append]
    obtain ⟨_, _, p, pouts, t, i, p1, o, a1, a2, a3, a4, a5⟩ := Fusion.fusion_last c j1 j2 (zs.map Prod.fst) z.1.1 z.1.2
    obtain ⟨_, _, q, pouts', t', i', q1, o', b1, b2, b3, b4, b5⟩ := Fusion.fusion_last c j1 j2 (zs.map Prod.snd) z.2.1 z.2.2
    rw [h1] at a1
    rw [h2] at b1
    cases a1
    cases b1
    refine ⟨t, infos ++ [i], t', infos' ++ [i'], a3, b3, ?_⟩
    have hf : List.Forall₂ Turned ((zs.map Prod.fst).map Prod.fst ++ [z.1.1]) ((zs.map Prod.snd).map Prod.fst ++ [z.2.1]) := by
      apply List.rel_append
      · rw [List.map_map, List.map_map, List.forall₂_map_left_iff, List.forall₂_map_right_iff, List.forall₂_same]
        intro x hx
        exact h x (List.mem_append_left _ hx)
      · exact .cons (h z (by simp)) .nil
    obtain ⟨u, u', outs, c1, c2⟩ := Pedo.C100_turned _ _ (turned_ops hf)
    rw [a4] at c1
    rw [b4] at c2
    rw [Option.some.injEq, Prod.mk.injEq] at c1 c2
    obtain ⟨-, c1⟩ := c1
    obtain ⟨-, c2⟩ := c2
    rw [← c2] at c1
    obtain ⟨d1, d2⟩ := List.append_inj' c1 rfl
    have d3 : o = o' := by simpa using d2
    rw [List.map_append, List.map_append, h3, List.map_singleton, List.map_singleton, a5.counter, a5.distance, b5.counter,
      b5.distance, d1, d3]

theorem turned_accepted {b b' : List Measurement} (h : List.Forall₂ TurnedMessage b b') (t : Int) :
    List.Forall₂ TurnedMessage (accepted t b) (accepted t b') := by
  induction h generalizing t with
  | nil => exact .nil
  | @cons m m' b b' hm _ ih =>
    unfold accepted
    rw [hm.ts]
    split_ifs
    · exact ih t
    · exact .cons hm (ih _)

theorem turned_taken {bs bs' : List (List Measurement)} (h : List.Forall₂ (List.Forall₂ TurnedMessage) bs bs') :
    List.Forall₂ TurnedMessage (taken bs) (taken bs') := by
  induction h with
  | nil => exact .nil
  | @cons b b' bs bs' hb _ ih =>
    change List.Forall₂ TurnedMessage (records b ++ taken bs) (records b' ++ taken bs')
    refine List.rel_append ?_ ih
    cases hb with
    | nil => exact .nil
    | @cons m m' l l' hm hl =>
      rw [records_eq, records_eq, ← hm.ts]
      exact turned_accepted (.cons hm hl) _

theorem turned_lastSensor (g : SensorMeasurement) {ms ms' : List Measurement} (h : List.Forall₂ TurnedMessage ms ms') :
    Turned (lastSensor g ms) (lastSensor g ms') := by
  have key : List.Forall₂ Turned
      (ms.filterMap (fun m => match m.data with
        | .sensor d => some (⟨d, m.ts⟩ : SensorMeasurement)
        | _ => none))
      (ms'.filterMap (fun m => match m.data with
        | .sensor d => some (⟨d, m.ts⟩ : SensorMeasurement)
        | _ => none)) := by
    induction h with
    | nil => exact .nil
    | @cons m m' ms ms' hm _ ih =>
      rw [List.filterMap_cons, List.filterMap_cons]
      rcases hm with rfl | ⟨d, d', e, e', ht⟩
      · cases m.data
        · exact ih
        · exact .cons (turned_refl _) ih
        · exact ih
      · rw [e, e']
        exact .cons ht ih
  unfold lastSensor
  generalize List.filterMap _ ms = l at key
  generalize List.filterMap _ ms' = l' at key
  have hr : List.Forall₂ Turned l.reverse l'.reverse := List.rel_reverse key
  rw [List.getLast?_eq_head?_reverse, List.getLast?_eq_head?_reverse]
  generalize l.reverse = r at hr
  generalize l'.reverse = r' at hr
  cases hr with
  | nil => exact turned_refl g
  | cons hx _ => exact hx

theorem turned_fed (g : SensorMeasurement) {ms ms' : List Measurement} (h : List.Forall₂ TurnedMessage ms ms') :
    List.Forall₂ (fun a b : SensorMeasurement × Int => Turned a.1 b.1) (fedSensors g ms) (fedSensors g ms') := by
  unfold fedSensors
  rw [List.forall₂_map_left_iff, List.forall₂_map_right_iff, List.forall₂_iff_get]
  have hlen := h.length_eq
  refine ⟨by simp [hlen], ?_⟩
  intro i h1 h2
  simp only [List.get_eq_getElem, List.getElem_zipIdx]
  exact turned_lastSensor g (List.forall₂_take _ h)

/-- **C100.** For every client, any memory contents at its start and any batches: if the device is held in another way, at
every sensor message in its own way (so that each vector has another direction but the same length), the client reports the
same step counters and step lengths. -/
theorem C100_client {ls : List Level} {c : Cfg} (hc : Client ls c) (g : Garbage) (batches batches' : List (List Measurement))
    (h : List.Forall₂ (List.Forall₂ TurnedMessage) batches batches') :
    ∃ s outs s' outs', navigateAll c (init c g) batches = .ok (s, outs) ∧ navigateAll c (init c g) batches' = .ok (s', outs') ∧
      outs.map (fun o => (o.2.stepCounter, o.2.stepLen)) = outs'.map (fun o => (o.2.stepCounter, o.2.stepLen)) := by
  obtain ⟨s, outs, h1, -⟩ := C79_total hc g batches
  obtain ⟨s', outs', h2, -⟩ := C79_total hc g batches'
  refine ⟨s, outs, s', outs', h1, h2, ?_⟩
  obtain ⟨infos, a1, a2, -⟩ := C99_sensors c g batches h1
  obtain ⟨infos', b1, b2, -⟩ := C99_sensors c g batches' h2
  have hf := turned_fed g.sensor (turned_taken h)
  have hlen := hf.length_eq
  obtain ⟨t, i, t', i', d1, d2, d3⟩ := turned_fusion c.fusion g.magn g.accel
    ((fedSensors g.sensor (taken batches)).zip (fedSensors g.sensor (taken batches'))) (by
      intro z hz
      exact (List.forall₂_iff_zip.mp hf).2 hz)
  rw [List.map_fst_zip (by omega), a1] at d1
  rw [List.map_snd_zip (by omega), b1] at d2
  cases d1
  cases d2
  rw [a2, b2, d3]

/-- Non-vacuity: the sample client, a device held upright or on its side. -/
example : List.Forall₂ (List.Forall₂ TurnedMessage)
    [[⟨.sensor ⟨.ACCELEROMETER, ⟨0, 0, 10⟩⟩, 1000⟩, ⟨.radio ⟨.BEACON, "tx", -70, 0, 0, 0⟩, 1500⟩]]
    [[⟨.sensor ⟨.ACCELEROMETER, ⟨0, -10, 0⟩⟩, 1000⟩, ⟨.radio ⟨.BEACON, "tx", -70, 0, 0, 0⟩, 1500⟩]] := by
  refine .cons (.cons (Or.inr ⟨_, _, rfl, rfl, rfl, rfl, ?_⟩) (.cons (Or.inl rfl) .nil)) .nil
  unfold Pedo.magnitude
  norm_num

end Verif.Nav
