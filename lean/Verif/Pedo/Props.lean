import Verif.Pedo.Lemmas

/-!
# Property theorems for the pedometer: C52, C53
-/

namespace Verif.Pedo

open Verif

/-- **C52.** Whatever the samples and their order, and however calls of the two versions of `update` and
of `calculateSteps` follow each other: any two reported steps are more than 300 ms apart and in strictly
increasing order of time, no length is negative, and every step has the time stamp of an accelerometer
sample. -/
theorem C52_spacing (ops : List PedoOp) (s : PedoState) (outs : List (List Step))
    (h : pedoRun ops = some (s, outs)) :
    outs.flatten.Pairwise (fun a b => a.ts + 300 < b.ts) ∧ (∀ st ∈ outs.flatten, 0 ≤ st.len) ∧
      ∀ st ∈ outs.flatten, ∃ m ∈ samples ops, m.ts = st.ts := by
  obtain ⟨s', outs', h1, -, h3, -⟩ := run_inv ops
  rw [h1] at h
  cases h
  exact ⟨h3.spaced, h3.lens, h3.origin⟩

/-- The size of the magnitude buffer between calls of the one-sample version. -/
theorem size_inv (ops : List PedoOp) (hb : ∀ ms, PedoOp.batch ms ∉ ops) (s : PedoState) (outs : List (List Step))
    (h : pedoRun ops = some (s, outs)) : s.mags.length ≤ s.magSize + 1 ∧ ∀ o ∈ outs, o.length ≤ 1 := by
  induction ops using List.reverseRecOn generalizing s outs with
  | nil =>
    cases h
    simp
  | append_singleton ops op ih =>
    obtain ⟨s0, outs0, h1, h2, h3, h4⟩ := run_inv ops
    obtain ⟨i1, i2⟩ := ih (fun ms hm => hb ms (List.mem_append_left _ hm)) s0 outs0 h1
    have hrun : pedoRun (ops ++ [op]) = pedoRecord (s0, outs0) op := by
      unfold pedoRun at h1 ⊢
      rw [List.foldlM_append, h1]
      simp [List.foldlM]
    rw [hrun] at h
    unfold pedoRecord at h
    cases op with
    | sample m =>
      by_cases hm : m.data.type = SensorType.ACCELEROMETER
      · obtain ⟨v, r, g1, -⟩ := push_spec { s0 with magSize := max s0.mags.length 1 } m
        simp only [pedoStep, update, hm, if_true, g1, Option.map_some, Option.some.injEq, Prod.mk.injEq] at h
        obtain ⟨rfl, rfl⟩ := h
        refine ⟨?_, ?_⟩
        · dsimp only
          split_ifs
          · rw [List.length_append, List.length_singleton]
            have := le_max_left s0.mags.length 1
            omega
          · have := le_max_left s0.mags.length 1
            omega
        · intro o ho
          rcases List.mem_append.mp ho with ho | ho
          · exact i2 o ho
          · rw [List.mem_singleton] at ho; rw [ho]; simp
      · simp only [pedoStep, update, hm, if_false, Option.map_some, Option.some.injEq, Prod.mk.injEq] at h
        obtain ⟨rfl, rfl⟩ := h
        refine ⟨?_, ?_⟩
        · have := le_max_left s0.mags.length 1
          dsimp only
          omega
        · intro o ho
          rcases List.mem_append.mp ho with ho | ho
          · exact i2 o ho
          · rw [List.mem_singleton] at ho; rw [ho]; simp
    | batch ms => exact absurd (List.mem_append_right _ (by simp)) (hb ms)
    | steps =>
      obtain ⟨s', new, g1, g2, g3, g4, g5, g6, ⟨d, g7, -⟩, -⟩ := inv_steps h3 h4
      simp only [pedoStep, g1, Option.map_some, Option.some.injEq, Prod.mk.injEq] at h
      obtain ⟨rfl, rfl⟩ := h
      have hlen := congrArg List.length g7
      rw [List.length_append] at hlen
      refine ⟨by rw [g4]; omega, ?_⟩
      intro o ho
      rcases List.mem_append.mp ho with ho | ho
      · exact i2 o ho
      · rw [List.mem_singleton] at ho; rw [ho]; omega

/-- **C52.** In the version used by the navigation library (one measurement per `update`) a call of
`calculateSteps` reports at most one step. -/
theorem C52_one_per_call (ops : List PedoOp) (hb : ∀ ms, PedoOp.batch ms ∉ ops) (s : PedoState)
    (outs : List (List Step)) (h : pedoRun ops = some (s, outs)) : ∀ o ∈ outs, o.length ≤ 1 :=
  (size_inv ops hb s outs h).2

/-- **C53, memory safety.** No history of calls, with samples in any order, runs a scan past the end of a
buffer or reads an element that is not there; at most 50 step times are kept, all between 300 ms and 2 s. -/
theorem C53_safe (ops : List PedoOp) :
    ∃ s outs, pedoRun ops = some (s, outs) ∧ outs.length = ops.length ∧ s.times.length ≤ 50 ∧
      ∀ t ∈ s.times, 300 < t ∧ t < 2000 := by
  obtain ⟨s', outs', h1, h2, h3, h4⟩ := run_inv ops
  exact ⟨s', outs', h1, h2, h4, h3.times⟩

/-- The buffers hold recent input. -/
structure Buf (src : List SensorMeasurement) (s : PedoState) : Prop where
  suffix : ∃ d, src = d ++ s.accel
  head : ∀ a z, s.accel.head? = some a → src.getLast? = some z → z.ts - a.ts ≤ 5000
  mags : (s.mags.map Magnitude.ts).Sublist (src.map Stamped.ts)

theorem buf_push {src : List SensorMeasurement} {s s' : PedoState} (h : Buf src s) (m : SensorMeasurement)
    (hp : push s m = some s') : Buf (src ++ [m]) s' := by
  obtain ⟨v, r, h1, ⟨d, h2, -⟩, h3, -⟩ := push_spec s m
  rw [h1] at hp
  cases hp
  obtain ⟨d0, h0⟩ := h.suffix
  refine ⟨⟨d0 ++ d, by rw [h0, h2]; simp⟩, ?_, ?_⟩
  · intro a z ha hz
    simp only [List.getLast?_append, List.getLast?_singleton, Option.some_or, Option.some.injEq] at hz
    rw [← hz]
    exact h3 a ha
  · dsimp only
    rw [List.map_append]
    split_ifs
    · rw [List.map_append]
      exact h.mags.append (List.Sublist.refl _)
    · exact h.mags.trans (List.sublist_append_left _ _)

theorem buf_run (ops : List PedoOp) (s : PedoState) (outs : List (List Step)) (h : pedoRun ops = some (s, outs)) :
    Buf (samples ops) s := by
  induction ops using List.reverseRecOn generalizing s outs with
  | nil =>
    cases h
    exact ⟨⟨[], rfl⟩, by simp, by simp⟩
  | append_singleton ops op ih =>
    obtain ⟨s0, outs0, h1, h2, h3, h4⟩ := run_inv ops
    have i1 := ih s0 outs0 h1
    have hrun : pedoRun (ops ++ [op]) = pedoRecord (s0, outs0) op := by
      unfold pedoRun at h1 ⊢
      rw [List.foldlM_append, h1]
      simp [List.foldlM]
    have hsrc : samples (ops ++ [op]) = samples ops ++ opSamples op := by simp [samples]
    rw [hrun] at h
    rw [hsrc]
    unfold pedoRecord at h
    have i2 : Buf (samples ops) { s0 with magSize := max s0.mags.length 1 } := ⟨i1.suffix, i1.head, i1.mags⟩
    cases op with
    | sample m =>
      by_cases hm : m.data.type = SensorType.ACCELEROMETER
      · simp only [pedoStep, update, hm, if_true, Option.map_map, Option.map_eq_some_iff, Function.comp,
          Prod.mk.injEq] at h
        obtain ⟨s1, g1, rfl, -⟩ := h
        simpa [opSamples, hm] using buf_push i2 m g1
      · simp only [pedoStep, update, hm, if_false, Option.map_some, Option.some.injEq, Prod.mk.injEq] at h
        obtain ⟨rfl, rfl⟩ := h
        simpa [opSamples, hm] using i2
    | batch ms =>
      simp only [pedoStep, updateBatch, Option.map_map, Option.map_eq_some_iff, Function.comp, Prod.mk.injEq] at h
      obtain ⟨s1, g1, rfl, -⟩ := h
      change Buf (samples ops ++ ms) s1
      clear hrun hsrc i1 ih h1 h3
      revert g1 i2
      generalize ({ s0 with magSize := max s0.mags.length 1 } : PedoState) = t
      generalize samples ops = src
      induction ms generalizing t src with
      | nil => intro i2 g1; cases g1; simpa using i2
      | cons m ms ih =>
        intro i2 g1
        rw [List.foldlM_cons] at g1
        obtain ⟨t1, r, q1, -⟩ := push_spec t m
        rw [q1] at g1
        have := ih _ _ (buf_push i2 m q1) g1
        simpa using this
    | steps =>
      obtain ⟨s', new, g1, g2, g3, g4, g5, g6, ⟨d, g7, -⟩, -⟩ := inv_steps h3 h4
      simp only [pedoStep, g1, Option.map_some, Option.some.injEq, Prod.mk.injEq] at h
      obtain ⟨rfl, rfl⟩ := h
      simp only [opSamples, List.append_nil]
      refine ⟨by rw [g5]; exact i1.suffix, by rw [g5]; exact i1.head, ?_⟩
      refine List.Sublist.trans ?_ i1.mags
      rw [g7, List.map_append]
      exact List.sublist_append_right _ _

/-- **C53, window lengths.** If the samples come in order of time, the sample buffer only holds samples at
most 5 s older than the latest one, and after `calculateSteps` the magnitude buffer either holds at most
three entries or spans at most 1.4 s. -/
theorem C53_windows (ops : List PedoOp) (hord : Ordered (samples ops)) (s : PedoState) (outs : List (List Step))
    (h : pedoRun ops = some (s, outs)) :
    (∀ m ∈ s.accel, ∀ z, (samples ops).getLast? = some z → z.ts - m.ts ≤ 5000) ∧
      (∀ ops', ops = ops' ++ [PedoOp.steps] →
        s.mags.length ≤ 3 ∨ ∀ g ∈ s.mags, ∀ g' ∈ s.mags, g.ts - g'.ts ≤ 1400) := by
  have hb := buf_run ops s outs h
  constructor
  · intro m hm z hz
    obtain ⟨d, hd⟩ := hb.suffix
    have hacc : s.accel.Pairwise (fun a b => a.ts ≤ b.ts) := by
      unfold Ordered at hord
      rw [hd, List.pairwise_append] at hord
      exact hord.2.1
    cases hs : s.accel with
    | nil => rw [hs] at hm; simp at hm
    | cons a l =>
      have h1 := hb.head a z (by rw [hs]; rfl) hz
      rw [hs] at hm hacc
      rcases List.mem_cons.mp hm with rfl | hm
      · exact h1
      · have := (List.pairwise_cons.mp hacc).1 m hm
        omega
  · rintro ops' rfl
    obtain ⟨s0, outs0, h1, h2, h3, h4⟩ := run_inv ops'
    have hrun : pedoRun (ops' ++ [PedoOp.steps]) = pedoRecord (s0, outs0) PedoOp.steps := by
      unfold pedoRun at h1 ⊢
      rw [List.foldlM_append, h1]
      simp [List.foldlM]
    rw [hrun] at h
    unfold pedoRecord at h
    obtain ⟨s', new, g1, g2, g3, g4, g5, g6, -, g8⟩ := inv_steps h3 h4
    simp only [pedoStep, g1, Option.map_some, Option.some.injEq, Prod.mk.injEq] at h
    obtain ⟨rfl, rfl⟩ := h
    by_cases hl : s'.mags.length ≤ 3
    · exact Or.inl hl
    · right
      have hsorted : (s'.mags.map Magnitude.ts).Pairwise (· ≤ ·) := by
        refine List.Pairwise.sublist hb.mags ?_
        rw [List.pairwise_map]
        exact hord
      rw [List.pairwise_map] at hsorted
      have hne : s'.mags ≠ [] := by intro h; simp [h] at hl
      obtain ⟨a, ha⟩ : ∃ a, s'.mags.head? = some a := ⟨s'.mags.head hne, List.head?_eq_some_head hne⟩
      obtain ⟨z, hz⟩ : ∃ z, s'.mags.getLast? = some z := ⟨s'.mags.getLast hne, List.getLast?_eq_some_getLast hne⟩
      have hspan := g8 (by omega) a z ha hz
      intro g hg g' hg'
      have hga : a.ts ≤ g'.ts := by
        obtain ⟨l, hl⟩ := List.head?_eq_some_iff.mp ha
        rw [hl] at hg' hsorted
        rcases List.mem_cons.mp hg' with rfl | hg'
        · exact le_refl _
        · exact (List.pairwise_cons.mp hsorted).1 g' hg'
      have hgz : g.ts ≤ z.ts := by
        obtain ⟨l, hl⟩ := List.getLast?_eq_some_iff.mp hz
        rw [hl] at hg hsorted
        rcases List.mem_append.mp hg with hg | hg
        · exact (List.pairwise_append.mp hsorted).2.2 g hg z (by simp)
        · rw [List.mem_singleton] at hg; rw [hg]
      omega

theorem popOld_keep {α : Type} (ts : α → Int) (limit : Int) (hl : 0 ≤ limit) (l : List α) (x : α)
    (h : ∀ a ∈ l, ts x ≤ ts a) : popOld ts limit (l ++ [x]) = some (l ++ [x]) := by
  cases l with
  | nil => simp [popOld, hl]
  | cons a l =>
    rw [List.cons_append]
    unfold popOld
    have : (a :: (l ++ [x])).getLast (by simp) = x := by
      rw [List.getLast_cons (by simp)]
      simp
    rw [this, if_neg (by have := h a (by simp); omega)]

theorem keep_all (ms : List SensorMeasurement) (hacc : ∀ m ∈ ms, m.data.type = SensorType.ACCELEROMETER)
    (hdec : ms.Pairwise (fun a b => b.ts ≤ a.ts)) :
    ∃ s outs, pedoRun (ms.map PedoOp.sample) = some (s, outs) ∧ s.accel = ms := by
  induction ms using List.reverseRecOn with
  | nil => exact ⟨_, _, rfl, rfl⟩
  | append_singleton ms m ih =>
    rw [List.pairwise_append] at hdec
    obtain ⟨s, outs, h1, h2⟩ := ih (fun m hm => hacc m (List.mem_append_left _ hm)) hdec.1
    obtain ⟨v, hv⟩ := filtered_some s.accel m
    have hk := popOld_keep Stamped.ts (2 * AVERAGING_TIME_INTERVAL_MS) (by decide) s.accel m
      (fun a ha => hdec.2.2 a (by rw [← h2]; exact ha) m (by simp))
    rw [List.map_append]
    unfold pedoRun at h1 ⊢
    rw [List.foldlM_append, h1]
    have hm := hacc m (by simp)
    have : pedoStep s (PedoOp.sample m) = some ({ s with
        magSize := max s.mags.length 1, accel := s.accel ++ [m],
        mags := if m.ts ≠ 0 then s.mags ++ [⟨m.ts, v⟩] else s.mags }, []) := by
      simp only [pedoStep, update, hm, if_true, push, hv, hk, Option.map_some]
    refine ⟨{ s with
        magSize := max s.mags.length 1, accel := s.accel ++ [m],
        mags := if m.ts ≠ 0 then s.mags ++ [⟨m.ts, v⟩] else s.mags }, outs ++ [[]], ?_, ?_⟩
    · simp [List.foldlM, pedoRecord, this]
    · simp [h2]

/-- `C53_windows` needs the order of time: samples that come in reverse order are all kept, however many
and however far apart. -/
theorem C53_unordered_grows (n : ℕ) :
    ∃ ops s outs, pedoRun ops = some (s, outs) ∧ s.accel.length = n + 1 ∧
      ∃ m ∈ s.accel, ∃ m' ∈ s.accel, m'.ts - m.ts = 10000 * (n : Int) := by
  obtain ⟨s, outs, h1, h2⟩ := keep_all ((List.range (n + 1)).map (fun k : ℕ =>
    (⟨⟨SensorType.ACCELEROMETER, ⟨0, 0, 9.8⟩⟩, 10000 * ((n : Int) - k) + 1⟩ : SensorMeasurement))) (by simp) (by
      rw [List.pairwise_map]
      refine List.pairwise_lt_range.imp ?_
      intro a b hab
      dsimp only
      omega)
  refine ⟨_, s, outs, h1, by rw [h2]; simp, ⟨⟨.ACCELEROMETER, ⟨0, 0, 9.8⟩⟩, 1⟩, ?_,
    ⟨⟨.ACCELEROMETER, ⟨0, 0, 9.8⟩⟩, 10000 * (n : Int) + 1⟩, ?_, by simp⟩
  · rw [h2]
    exact List.mem_map.mpr ⟨n, by simp, by simp⟩
  · rw [h2]
    exact List.mem_map.mpr ⟨0, by simp, by simp⟩

end Verif.Pedo
