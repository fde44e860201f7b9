import Verif.Pedo.Detect
import Mathlib.Tactic.NormNum

/-!
# A walk with one step: the hypotheses of C52, C53 and C77 are met by a concrete, non-trivial history
-/

namespace Verif.Pedo

open Verif

/-- An accelerometer sample with magnitude `v`. -/
def acc (ts : Int) (v : ℝ) : SensorMeasurement := ⟨⟨.ACCELEROMETER, ⟨0, 0, v⟩⟩, ts⟩

theorem magnitude_acc (ts : Int) (v : ℝ) (h : 0 ≤ v) : magnitude (acc ts v).data.values = v := by
  unfold magnitude acc
  simp [Real.sqrt_mul_self h]

/-- Up to three measurements bring no step. -/
theorem short_run (l : List SensorMeasurement) : ∀ t (w : List (List Step)), l.length ≤ 3 →
    pedoRun (fusionOps l) = some (t, w) → w.flatten = [] := by
  induction l using List.reverseRecOn with
  | nil => intro t w _ h; cases h; rfl
  | append_singleton l m ih =>
    intro t w hl h
    rw [List.length_append, List.length_singleton] at hl
    obtain ⟨t0, w0, e1, -, e3, e4⟩ := run_inv (fusionOps l)
    have hw0 := ih t0 w0 (by omega) e1
    obtain ⟨t1, u1⟩ : ∃ t1, update t0 m = some t1 := by
      unfold update
      by_cases hm : m.data.type = SensorType.ACCELEROMETER
      · simp only [hm, if_true]
        obtain ⟨v, r, q, -⟩ := push_spec { t0 with magSize := max t0.mags.length 1 } m
        exact ⟨_, q⟩
      · simp only [hm, if_false]
        exact ⟨_, rfl⟩
    have hb := (buf_run (fusionOps l ++ [.sample m]) t1 (w0 ++ [[]]) (by
      unfold pedoRun at e1 ⊢
      rw [List.foldlM_append, e1]
      simp [pedoRecord, pedoStep, u1, List.foldlM])).mags.length_le
    have hsmall : t1.mags.length ≤ 3 := by
      have hs : (samples (fusionOps l ++ [PedoOp.sample m])).length ≤ l.length + 1 := by
        have : samples (fusionOps l ++ [PedoOp.sample m]) = accelOf l ++ opSamples (.sample m) := by
          rw [← samples_fusion]
          simp [samples]
        rw [this, List.length_append]
        have h6 : (accelOf l).length ≤ l.length := List.length_filter_le _ _
        have h7 : (opSamples (.sample m)).length ≤ 1 := by
          dsimp only [opSamples]
          split_ifs <;> simp
        omega
      simp only [List.length_map] at hb
      omega
    have hc : calculateSteps t1 = some (t1, []) := by
      unfold calculateSteps
      rw [if_pos hsmall]
    rw [run_snoc l m t0 t1 t1 w0 [] e1 u1 hc] at h
    cases h
    simp [hw0]

/-- Three samples at rest, then a strong one: one step, at the time of the fourth sample. -/
theorem walk_one_step : ∃ s o, pedoRun (fusionOps ([acc 1000 0, acc 1250 0, acc 1500 0] ++ [acc 1750 10])) =
    some (s, o) ∧ ∃ len before, o = before ++ [[], [⟨1750, len⟩]] ∧ before.flatten = [] := by
  have hA : accelOf [acc 1000 0, acc 1250 0, acc 1500 0] = [] ++ [acc 1000 0, acc 1250 0, acc 1500 0] := by
    simp [accelOf, acc]
  obtain ⟨s, outs, h1, -⟩ := C53_safe (fusionOps [acc 1000 0, acc 1250 0, acc 1500 0])
  have hord : Ordered (accelOf [acc 1000 0, acc 1250 0, acc 1500 0] ++ [acc 1750 10]) := by
    rw [hA]
    simp [Ordered, acc]
  obtain ⟨s', o, h2, h3, h4⟩ := C77_detect _ (acc 1750 10) _ _ _ _ hA rfl hord (by rw [hA]; simp [acc])
    (by simp [acc]) s outs h1
  -- no step before
  have hflat : outs.flatten = [] := by
    have e : pedoRun (fusionOps [acc 1000 0, acc 1250 0, acc 1500 0]) = some (s, outs) := h1
    exact short_run _ s outs (by simp) e
  refine ⟨s', _, h2, ?_⟩
  have hne : o ≠ [] := by
    rw [h3, hflat, hA]
    have m0 : ∀ ts, magnitude (acc ts 0).data.values = 0 := fun ts => magnitude_acc ts 0 (le_refl _)
    have m1 : magnitude (acc 1750 10).data.values = 10 := magnitude_acc 1750 10 (by norm_num)
    refine ⟨?_, ?_, ?_⟩
    · have e : filteredValue ([] ++ [acc 1000 0, acc 1250 0]) (acc 1500 0) = 0 := by
        have w1 : within (acc 1500 0).ts 200 ([] ++ [acc 1000 0, acc 1250 0] ++ [acc 1500 0]) = [acc 1500 0] := by
          simp [within, acc]
        have w2 : within (acc 1500 0).ts 2500 ([] ++ [acc 1000 0, acc 1250 0] ++ [acc 1500 0]) =
            [acc 1000 0, acc 1250 0, acc 1500 0] := by
          simp [within, acc]
        simp only [filteredValue, w1, w2, meanMagn, List.map_cons, List.map_nil, m0]
        simp
      rw [e]
      unfold threshold
      norm_num
    · have e : filteredValue ([] ++ [acc 1000 0, acc 1250 0, acc 1500 0]) (acc 1750 10) = 5 := by
        have w1 : within (acc 1750 10).ts 200 ([] ++ [acc 1000 0, acc 1250 0, acc 1500 0] ++ [acc 1750 10]) =
            [acc 1750 10] := by
          simp [within, acc]
        have w2 : within (acc 1750 10).ts 2500 ([] ++ [acc 1000 0, acc 1250 0, acc 1500 0] ++ [acc 1750 10]) =
            [acc 1000 0, acc 1250 0, acc 1500 0, acc 1750 10] := by
          simp [within, acc]
        simp only [filteredValue, w1, w2, meanMagn, List.map_cons, List.map_nil, m0, m1]
        simp only [List.length_cons, List.length_nil, List.sum_cons, List.sum_nil]
        norm_num
      rw [e]
      unfold threshold
      norm_num
    · simp [lastStepTs, acc]
  obtain ⟨st, hst⟩ := List.exists_mem_of_ne_nil o hne
  obtain ⟨e1, e2, -⟩ := h4 st hst
  refine ⟨st.len, outs, ?_, hflat⟩
  rw [e1]
  cases st
  simp only at e2
  rw [e2]
  rfl

end Verif.Pedo
