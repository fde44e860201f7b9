import Verif.Footprint.Spec
import Verif.Pedo.Detect
import Verif.Radio.Props

/-!
# Lemmas for C121
-/

namespace Verif.Footprint

open Verif.Levels Verif.Nav
open Verif.Knn (Result)

/-! ## Counting -/

theorem recent_of_subperm {l ts : List Int} {w : ℝ} (h : l.Subperm ts)
    (hw : ∀ t ∈ l, ∀ z, ts.getLast? = some z → ((z - t : Int) : ℝ) ≤ w) : l.length ≤ recent ts w := by
  classical
  unfold recent
  have h1 := h.filter (fun t => decide (∀ z, ts.getLast? = some z → ((z - t : Int) : ℝ) ≤ w))
  have h2 : l.filter (fun t => decide (∀ z, ts.getLast? = some z → ((z - t : Int) : ℝ) ≤ w)) = l := by
    rw [List.filter_eq_self]
    intro t ht
    exact decide_eq_true (hw t ht)
  rw [h2] at h1
  refine h1.length_le.trans (le_of_eq ?_)
  congr

theorem subperm_map {α β : Type} (f : α → β) {l l' : List α} (h : l.Subperm l') : (l.map f).Subperm (l'.map f) := by
  obtain ⟨k, hp, hs⟩ := h
  exact ⟨k.map f, hp.map f, hs.map f⟩

/-! ## The buffer of radio signals -/

/-- What is known of the buffer when the times of the admitted signals are `H`. -/
structure Held (cfg : Radio.BufferCfg) (H : List Int) (b : Radio.BufferState) : Prop where
  sub : (b.measurements.map (·.ts)).Subperm H
  cur : b.currentTs = H.getLast?.getD 0
  le : b.lastExtractionTs ≤ b.currentTs
  low : ∀ m ∈ b.measurements, b.lastExtractionTs - cfg.keepMs ≤ m.ts

/-- The gate was just passed, or is closed. -/
def Gated (cfg : Radio.BufferCfg) (b : Radio.BufferState) : Prop :=
  b.currentTs - b.lastExtractionTs < cfg.shiftMs ∨ b.currentTs = b.lastExtractionTs

theorem held_init (cfg : Radio.BufferCfg) : Held cfg [] Radio.BufferState.init ∧ Gated cfg Radio.BufferState.init :=
  ⟨⟨List.nil_subperm, rfl, le_refl _, by simp [Radio.BufferState.init]⟩, .inr rfl⟩

theorem held_add {cfg : Radio.BufferCfg} (hk : 0 ≤ cfg.keepMs) {H : List Int} {b : Radio.BufferState} (h : Held cfg H b)
    (hpos : ∀ t ∈ H, 0 < t) {m : RadioMeasurement} (hord : ∀ t ∈ H, t ≤ m.ts) :
    Held cfg (H ++ [m.ts]) (Radio.addMeasurement cfg b m) := by
  have hle : b.currentTs ≠ 0 → b.currentTs ≤ m.ts := by
    rw [h.cur]
    cases hl : H.getLast? with
    | none => simp
    | some z => exact fun _ => hord z (List.mem_of_getLast? hl)
  have hemp : b.currentTs = 0 → b.measurements = [] := by
    intro h0
    have h1 := h.cur
    cases hl : H.getLast? with
    | none =>
      rw [List.getLast?_eq_none_iff] at hl
      have := h.sub
      rw [hl] at this
      simpa using this.length_le
    | some z =>
      rw [hl, h0] at h1
      have := hpos z (List.mem_of_getLast? hl)
      simp at h1
      omega
  unfold Radio.addMeasurement
  dsimp only
  by_cases h0 : b.currentTs = 0
  · rw [if_pos h0]
    dsimp only
    rw [hemp h0]
    refine ⟨?_, by simp, le_refl _, ?_⟩
    · simp only [List.nil_append, List.map_cons, List.map_nil]
      exact (List.sublist_append_right H [m.ts]).subperm
    · intro x hx
      simp only [List.nil_append, List.mem_singleton] at hx
      rw [hx]
      dsimp only
      omega
  · rw [if_neg h0]
    have := hle h0
    have := h.le
    refine ⟨?_, by simp, by dsimp only; omega, ?_⟩
    · simp only [List.map_append, List.map_cons, List.map_nil]
      exact (List.subperm_append_right _).mpr h.sub
    · intro x hx
      rcases List.mem_append.mp hx with hx | hx
      · exact h.low x hx
      · rw [List.mem_singleton] at hx
        rw [hx]
        dsimp only
        omega

theorem held_extract {so : Radio.Sorts} (hso : so.Lawful) {cfg : Radio.BufferCfg} (hst : cfg.useStops = false) {H : List Int}
    {b : Radio.BufferState} (h : Held cfg H b) (t : Int) :
    Held cfg H (Radio.extractMeasurements so cfg b t).2 ∧ Gated cfg (Radio.extractMeasurements so cfg b t).2 := by
  by_cases hg : b.currentTs - b.lastExtractionTs < cfg.shiftMs
  · unfold Radio.extractMeasurements
    dsimp only
    by_cases ht : t > 0
    · rw [if_pos ht]
      dsimp only
      rw [if_pos hg]
      exact ⟨⟨h.sub, h.cur, h.le, h.low⟩, .inl hg⟩
    · rw [if_neg ht, if_pos hg]
      exact ⟨h, .inl hg⟩
  · obtain ⟨-, r2, r3⟩ := Radio.C19_retention so hso cfg b t (by omega)
    have hns : ¬ Radio.StandingStill cfg b t := fun hs => by
      have := hs.1
      rw [hst] at this
      cases this
    have hle := Radio.extract_pass so cfg b t hg
    have e1 : (Radio.extractMeasurements so cfg b t).2.currentTs = b.currentTs := by rw [hle]
    have e2 : (Radio.extractMeasurements so cfg b t).2.lastExtractionTs = b.currentTs := by rw [hle]
    have hsub : (Radio.extractMeasurements so cfg b t).2.measurements.Subperm b.measurements ∧
        ∀ m ∈ (Radio.extractMeasurements so cfg b t).2.measurements, b.currentTs - cfg.keepMs ≤ m.ts := by
      by_cases hk : cfg.keepMs = 0
      · rw [r2 hns hk]
        exact ⟨List.nil_subperm, by simp⟩
      · have hp := r3 hns hk
        refine ⟨hp.subperm.trans List.filter_sublist.subperm, fun m hm => ?_⟩
        have := hp.mem_iff.mp hm
        simpa using (List.mem_filter.mp this).2
    refine ⟨⟨(subperm_map _ hsub.1).trans h.sub, by rw [e1]; exact h.cur, by rw [e1, e2], ?_⟩, .inr (by rw [e1, e2])⟩
    rw [e2]
    exact hsub.2

/-- The settings of the window. -/
theorem window_le (cs : CommonSettings) (ha : 0 ≤ cs.sigAveragingTime) (hs : 0 ≤ cs.sigWindowShift) :
    let cfg := Radio.createRadioMeasurementBuffer cs
    0 ≤ cfg.keepMs ∧ 0 ≤ cfg.shiftMs ∧ ((cfg.keepMs + cfg.shiftMs : Int) : ℝ) ≤ 1000 * cs.sigAveragingTime := by
  intro cfg
  have h1 : 0 ≤ Radio.truncToInt (1000 * cs.sigAveragingTime) ∧ ((Radio.truncToInt (1000 * cs.sigAveragingTime) : Int) : ℝ) ≤ 1000 * cs.sigAveragingTime := by
    unfold Radio.truncToInt
    rw [if_pos (by positivity)]
    exact ⟨Int.floor_nonneg.mpr (by positivity), Int.floor_le _⟩
  have h2 : 0 ≤ Radio.truncToInt (1000 * cs.sigWindowShift) := by
    unfold Radio.truncToInt
    rw [if_pos (by positivity)]
    exact Int.floor_nonneg.mpr (by positivity)
  have e : cfg.keepMs + cfg.shiftMs = Radio.truncToInt (1000 * cs.sigAveragingTime) := by
    simp only [cfg, Radio.createRadioMeasurementBuffer]
    omega
  rw [e]
  refine ⟨?_, ?_, h1.2⟩
  · simp only [cfg, Radio.createRadioMeasurementBuffer]
    split_ifs with hc
    · omega
    · push Not at hc
      omega
  · simp only [cfg, Radio.createRadioMeasurementBuffer]
    split_ifs with hc
    · exact h1.1
    · exact h2

/-! ## The samples -/

theorem fed_times (g : SensorMeasurement) (ms : List Measurement) : (fedSensors g ms).map Prod.snd = ms.map (·.ts) := by
  induction ms using List.reverseRecOn with
  | nil => rfl
  | append_singleton ms m ih => rw [fedSensors_snoc, List.map_append, ih, List.map_append]; rfl

/-- The samples handed to the sensor fusion come in order and are not from the future. -/
theorem fed_ordered (g : SensorMeasurement) {ms : List Measurement} (h : Orderly ms) :
    (∀ p ∈ fedSensors g ms, 0 < p.1.ts ∧ p.1.ts ≤ p.2 ∧ p.1.ts ≤ (lastSensor g ms).ts) ∧
    (ms ≠ [] → 0 < (lastSensor g ms).ts ∧ ∀ z, ms.getLast? = some z → (lastSensor g ms).ts ≤ z.ts) ∧
    ((fedSensors g ms).map Prod.fst).Pairwise (fun a b => a.ts ≤ b.ts) := by
  induction ms using List.reverseRecOn with
  | nil => exact ⟨by simp [fedSensors], by simp, by simp [fedSensors]⟩
  | append_singleton ms m ih =>
    have h0 : Orderly ms := by
      refine ⟨fun e he => h.pos e (by simp [he]), (List.pairwise_append.mp h.ordered).1, fun e he => h.sensor e ?_⟩
      cases ms with
      | nil => cases he
      | cons a l => exact he
    obtain ⟨i1, i2, i3⟩ := ih h0
    have hm := h.pos m (by simp)
    have hord : ∀ e ∈ ms, e.ts ≤ m.ts := fun e he => (List.pairwise_append.mp h.ordered).2.2 e he m (by simp)
    -- the new last sensor message
    have key : 0 < (lastSensor g (ms ++ [m])).ts ∧ (lastSensor g (ms ++ [m])).ts ≤ m.ts ∧
        ∀ p ∈ fedSensors g ms, p.1.ts ≤ (lastSensor g (ms ++ [m])).ts := by
      rw [lastSensor_snoc]
      have hcase : (∀ d, m.data ≠ .sensor d) → 0 < (lastSensor g ms).ts ∧ (lastSensor g ms).ts ≤ m.ts ∧
          ∀ p ∈ fedSensors g ms, p.1.ts ≤ (lastSensor g ms).ts := by
        intro hd
        have hne : ms ≠ [] := by
          rintro rfl
          obtain ⟨d, hd'⟩ := h.sensor m rfl
          exact hd d hd'
        obtain ⟨j1, j2⟩ := i2 hne
        obtain ⟨z, hz⟩ : ∃ z, ms.getLast? = some z := ⟨_, List.getLast?_eq_some_getLast hne⟩
        exact ⟨j1, (j2 z hz).trans (hord z (List.mem_of_getLast? hz)), fun p hp => (i1 p hp).2.2⟩
      cases hd : m.data with
      | sensor d =>
        refine ⟨hm, le_refl _, fun p hp => ?_⟩
        have hmem : p.2 ∈ (fedSensors g ms).map Prod.snd := List.mem_map_of_mem hp
        rw [fed_times] at hmem
        obtain ⟨e, he, hpe⟩ := List.mem_map.mp hmem
        have := (i1 p hp).2.1
        have := hord e he
        dsimp only at hpe ⊢
        omega
      | radio d => exact hcase (fun d' h' => by rw [hd] at h'; cases h')
      | nmea d => exact hcase (fun d' h' => by rw [hd] at h'; cases h')
    rw [fedSensors_snoc]
    refine ⟨?_, fun _ => ⟨key.1, fun z hz => ?_⟩, ?_⟩
    · intro p hp
      rcases List.mem_append.mp hp with hp | hp
      · exact ⟨(i1 p hp).1, (i1 p hp).2.1, key.2.2 p hp⟩
      · rw [List.mem_singleton] at hp
        rw [hp]
        exact ⟨key.1, key.2.1, le_refl _⟩
    · rw [List.getLast?_append, List.getLast?_singleton, Option.some_or, Option.some.injEq] at hz
      rw [← hz]; exact key.2.1
    · rw [List.map_append, List.pairwise_append]
      refine ⟨i3, by simp, fun a ha b hb => ?_⟩
      obtain ⟨p, hp, rfl⟩ := List.mem_map.mp ha
      simp only [List.map_cons, List.map_nil, List.mem_singleton] at hb
      rw [hb]
      exact key.2.2 p hp

end Verif.Footprint
