import Verif.Pedo.Props

/-!
# Property theorems for the pedometer: C100 (the way the device is held), number of steps (C52)
-/

namespace Verif.Pedo

open Verif

/-! ## Specification -/

/-- The same measurement by a device that is held in another way: same time, same sensor, a vector of the same
length. -/
structure Turned (m m' : SensorMeasurement) : Prop where
  ts : m.ts = m'.ts
  type : m.data.type = m'.data.type
  force : magnitude m.data.values = magnitude m'.data.values

/-- The same call with turned samples. -/
inductive TurnedOp : PedoOp → PedoOp → Prop
  | sample {m m' : SensorMeasurement} (h : Turned m m') : TurnedOp (.sample m) (.sample m')
  | batch {ms ms' : List SensorMeasurement} (h : List.Forall₂ Turned ms ms') : TurnedOp (.batch ms) (.batch ms')
  | steps : TurnedOp .steps .steps

/-! ## Proofs -/

/-- The states differ only in the directions of the stored samples. -/
structure TurnedState (s s' : PedoState) : Prop where
  accel : List.Forall₂ Turned s.accel s'.accel
  rest : s' = { s with accel := s'.accel }

theorem turned_scan (last T : Int) {l l' : List SensorMeasurement} (h : List.Forall₂ Turned l l') :
    (scan last T l = none ∧ scan last T l' = none) ∨
      ∃ r r', scan last T l = some r ∧ scan last T l' = some r' ∧ List.Forall₂ Turned r r' := by
  induction h with
  | nil => exact Or.inl ⟨rfl, rfl⟩
  | @cons m m' l l' hm hl ih =>
    unfold scan
    rw [← hm.ts]
    split_ifs
    · exact ih
    · exact Or.inr ⟨_, _, rfl, rfl, .cons hm hl⟩

theorem turned_sum {l l' : List SensorMeasurement} (h : List.Forall₂ Turned l l') : sumMagn l = sumMagn l' := by
  unfold sumMagn
  generalize (0 : ℝ) = a
  induction h generalizing a with
  | nil => rfl
  | cons hm _ ih => rw [List.foldl_cons, List.foldl_cons, hm.force, ih]

theorem turned_last {l l' : List SensorMeasurement} (h : List.Forall₂ Turned l l') (hne : l ≠ []) (hne' : l' ≠ []) :
    (l.getLast hne).ts = (l'.getLast hne').ts := by
  induction h with
  | nil => exact absurd rfl hne
  | @cons m m' l l' hm hl ih =>
    cases hl with
    | nil => exact hm.ts
    | cons hm2 hl2 =>
      exact ih (List.cons_ne_nil _ _) (List.cons_ne_nil _ _)

theorem turned_filtered {l l' : List SensorMeasurement} (h : List.Forall₂ Turned l l') :
    calculateFilteredAccMagnitudes l = calculateFilteredAccMagnitudes l' := by
  cases h with
  | nil => rfl
  | @cons m m' l l' hm hl =>
    have hf : List.Forall₂ Turned (m :: l) (m' :: l') := .cons hm hl
    unfold calculateFilteredAccMagnitudes
    rw [List.getLast?_eq_getLast_of_ne_nil (by simp), List.getLast?_eq_getLast_of_ne_nil (by simp)]
    dsimp only
    rw [turned_last hf (by simp) (by simp)]
    generalize ((m' :: l').getLast _).ts = t
    rcases turned_scan t AVERAGING_TIME_INTERVAL_MS hf with ⟨e1, e2⟩ | ⟨a, a', e1, e2, ha⟩ <;> rw [e1, e2]
    rcases turned_scan t FILTER_TIME_INTERVAL_MS hf with ⟨e3, e4⟩ | ⟨b, b', e3, e4, hb⟩ <;> rw [e3, e4]
    dsimp only
    rw [ha.length_eq, hb.length_eq, turned_sum ha, turned_sum hb]

theorem turned_pop (limit : Int) {l l' : List SensorMeasurement} (h : List.Forall₂ Turned l l') :
    (popOld Stamped.ts limit l = none ∧ popOld Stamped.ts limit l' = none) ∨
      ∃ r r', popOld Stamped.ts limit l = some r ∧ popOld Stamped.ts limit l' = some r' ∧ List.Forall₂ Turned r r' := by
  induction h with
  | nil => exact Or.inl ⟨rfl, rfl⟩
  | @cons m m' l l' hm hl ih =>
    unfold popOld
    rw [turned_last (.cons hm hl) (by simp) (by simp), hm.ts]
    split_ifs
    · exact ih
    · exact Or.inr ⟨_, _, rfl, rfl, .cons hm hl⟩

theorem turned_push {s s' : PedoState} (h : TurnedState s s') {m m' : SensorMeasurement} (hm : Turned m m') :
    (push s m = none ∧ push s' m' = none) ∨
      ∃ t t', push s m = some t ∧ push s' m' = some t' ∧ TurnedState t t' := by
  have ha : List.Forall₂ Turned (s.accel ++ [m]) (s'.accel ++ [m']) :=
    List.rel_append h.accel (.cons hm .nil)
  have hmags : s'.mags = s.mags := by rw [h.rest]
  unfold push
  dsimp only
  rw [turned_filtered ha, hmags]
  cases calculateFilteredAccMagnitudes (s'.accel ++ [m']) with
  | none => exact Or.inl ⟨rfl, rfl⟩
  | some v =>
    dsimp only
    rcases turned_pop (2 * AVERAGING_TIME_INTERVAL_MS) ha with ⟨e1, e2⟩ | ⟨r, r', e1, e2, hr⟩ <;> rw [e1, e2]
    · exact Or.inl ⟨rfl, rfl⟩
    · refine Or.inr ⟨_, _, rfl, rfl, hr, ?_⟩
      conv_lhs => rw [h.rest]

theorem turned_pushes {ms ms' : List SensorMeasurement} (hms : List.Forall₂ Turned ms ms') {s s' : PedoState}
    (h : TurnedState s s') :
    (ms.foldlM push s = none ∧ ms'.foldlM push s' = none) ∨
      ∃ t t', ms.foldlM push s = some t ∧ ms'.foldlM push s' = some t' ∧ TurnedState t t' := by
  induction hms generalizing s s' with
  | nil => exact Or.inr ⟨s, s', rfl, rfl, h⟩
  | @cons m m' ms ms' hm _ ih =>
    rw [List.foldlM_cons, List.foldlM_cons]
    rcases turned_push h hm with ⟨e1, e2⟩ | ⟨t, t', e1, e2, ht⟩ <;> rw [e1, e2]
    · exact Or.inl ⟨rfl, rfl⟩
    · exact ih ht

theorem turned_body (b : ℝ) (i : ℕ) {s s' : PedoState} (h : TurnedState s s') (steps : List Step) :
    (stepBody b i (s, steps) = none ∧ stepBody b i (s', steps) = none) ∨
      ∃ t t' r, stepBody b i (s, steps) = some (t, r) ∧ stepBody b i (s', steps) = some (t', r) ∧ TurnedState t t' := by
  obtain ⟨accel, mags, times, magSize, possibleTs, stepTime, isStep⟩ := s
  obtain ⟨accel', mags', times', magSize', possibleTs', stepTime', isStep'⟩ := s'
  have hr := h.rest
  have ha := h.accel
  dsimp only at hr ha
  cases hr
  unfold stepBody
  dsimp only
  split_ifs
  · exact Or.inl ⟨rfl, rfl⟩
  all_goals
    cases mags[i]? with
    | none => exact Or.inl ⟨rfl, rfl⟩
    | some cur =>
      cases mags[i - 1]? with
      | none => exact Or.inl ⟨rfl, rfl⟩
      | some prev =>
        dsimp only
        split_ifs <;> dsimp only at * <;>
          first
          | exact Or.inr ⟨_, _, _, rfl, rfl, ha, rfl⟩
          | (cases calculateStepLength mags UPDATE_TIME_INTERVAL_MS i with
             | none => exact Or.inl ⟨rfl, rfl⟩
             | some len => exact Or.inr ⟨_, _, _, rfl, rfl, ha, rfl⟩)
          | simp_all

theorem turned_loop (b : ℝ) (n : ℕ) : ∀ (i : ℕ) {s s' : PedoState} (_ : TurnedState s s') (steps : List Step),
    (stepLoop b i n (s, steps) = none ∧ stepLoop b i n (s', steps) = none) ∨
      ∃ t t' r, stepLoop b i n (s, steps) = some (t, r) ∧ stepLoop b i n (s', steps) = some (t', r) ∧ TurnedState t t' := by
  induction n with
  | zero => intro i s s' h steps; exact Or.inr ⟨s, s', steps, rfl, rfl, h⟩
  | succ n ih =>
    intro i s s' h steps
    unfold stepLoop
    rcases turned_body b i h steps with ⟨e1, e2⟩ | ⟨t, t', r, e1, e2, ht⟩ <;> rw [e1, e2]
    · exact Or.inl ⟨rfl, rfl⟩
    · exact ih (i + 1) ht r

theorem turned_steps {s s' : PedoState} (h : TurnedState s s') :
    (calculateSteps s = none ∧ calculateSteps s' = none) ∨
      ∃ t t' r, calculateSteps s = some (t, r) ∧ calculateSteps s' = some (t', r) ∧ TurnedState t t' := by
  have hmags : s'.mags = s.mags := by rw [h.rest]
  have htimes : s'.times = s.times := by rw [h.rest]
  have hsize : s'.magSize = s.magSize := by rw [h.rest]
  unfold calculateSteps
  rw [hmags, htimes, hsize]
  split_ifs
  · exact Or.inr ⟨s, s', [], rfl, rfl, h⟩
  · rcases turned_loop (timeBetweenSteps s.times) (s.mags.length - s.magSize) s.magSize h [] with
      ⟨e1, e2⟩ | ⟨t, t', r, e1, e2, ht⟩ <;> rw [e1, e2]
    · exact Or.inl ⟨rfl, rfl⟩
    · dsimp only
      rw [show t'.mags = t.mags by rw [ht.rest]]
      cases popOld Magnitude.ts (2 * UPDATE_TIME_INTERVAL_MS) t.mags with
      | none => exact Or.inl ⟨rfl, rfl⟩
      | some mags =>
        refine Or.inr ⟨_, _, r, rfl, rfl, ht.accel, ?_⟩
        conv_lhs => rw [ht.rest]

theorem turned_op {op op' : PedoOp} (ho : TurnedOp op op') {s s' : PedoState} (h : TurnedState s s') :
    (pedoStep s op = none ∧ pedoStep s' op' = none) ∨
      ∃ t t' r, pedoStep s op = some (t, r) ∧ pedoStep s' op' = some (t', r) ∧ TurnedState t t' := by
  have hmags : s'.mags = s.mags := by rw [h.rest]
  have h0 : TurnedState { s with magSize := max s.mags.length 1 } { s' with magSize := max s'.mags.length 1 } := by
    refine ⟨h.accel, ?_⟩
    rw [hmags]
    conv_lhs => rw [h.rest]
  cases ho with
  | @sample m m' hm =>
    simp only [pedoStep, update, ← hm.type]
    split_ifs
    · rcases turned_push h0 hm with ⟨e1, e2⟩ | ⟨t, t', e1, e2, ht⟩ <;> rw [e1, e2]
      · exact Or.inl ⟨rfl, rfl⟩
      · exact Or.inr ⟨t, t', [], rfl, rfl, ht⟩
    · exact Or.inr ⟨_, _, [], rfl, rfl, h0⟩
  | @batch ms ms' hms =>
    simp only [pedoStep, updateBatch]
    rcases turned_pushes hms h0 with ⟨e1, e2⟩ | ⟨t, t', e1, e2, ht⟩ <;> rw [e1, e2]
    · exact Or.inl ⟨rfl, rfl⟩
    · exact Or.inr ⟨t, t', [], rfl, rfl, ht⟩
  | steps => exact turned_steps h

/-- **C100.** The pedometer does not depend on how the device is held: for every history of calls, in both versions, and
any other history with the same times in which every accelerometer sample has the same length (each may be turned in
its own way), the reported steps are the same, with the same times and lengths. -/
theorem C100_turned (ops ops' : List PedoOp) (h : List.Forall₂ TurnedOp ops ops') :
    ∃ s s' outs, pedoRun ops = some (s, outs) ∧ pedoRun ops' = some (s', outs) := by
  have key : ∀ (ops ops' : List PedoOp), List.Forall₂ TurnedOp ops ops' → ∀ (s s' : PedoState) (outs : List (List Step)),
      TurnedState s s' → (ops.foldlM pedoRecord (s, outs) = none ∧ ops'.foldlM pedoRecord (s', outs) = none) ∨
      ∃ t t' r, ops.foldlM pedoRecord (s, outs) = some (t, r) ∧ ops'.foldlM pedoRecord (s', outs) = some (t', r) := by
    intro ops ops' h
    induction h with
    | nil => intro s s' outs _; exact Or.inr ⟨s, s', outs, rfl, rfl⟩
    | @cons op op' ops ops' ho _ ih =>
      intro s s' outs hs
      rw [List.foldlM_cons, List.foldlM_cons]
      unfold pedoRecord
      dsimp only
      rcases turned_op ho hs with ⟨e1, e2⟩ | ⟨t, t', r, e1, e2, ht⟩ <;> rw [e1, e2]
      · exact Or.inl ⟨rfl, rfl⟩
      · exact ih t t' (outs ++ [r]) ht
  obtain ⟨s, outs, hs, -⟩ := C53_safe ops
  rcases key ops ops' h {} {} [] ⟨.nil, rfl⟩ with ⟨e1, -⟩ | ⟨t, t', r, e1, e2⟩
  · rw [pedoRun, e1] at hs
    cases hs
  · exact ⟨t, t', r, e1, e2⟩

/-- Non-vacuity: a walker who holds the device upright or on its side. -/
example (ts : Int) (g : ℝ) (hg : 0 ≤ g) : Turned ⟨⟨.ACCELEROMETER, ⟨0, 0, g⟩⟩, ts⟩ ⟨⟨.ACCELEROMETER, ⟨-g, 0, 0⟩⟩, ts⟩ ∧
    magnitude ⟨0, 0, g⟩ = g := by
  have h1 : magnitude ⟨0, 0, g⟩ = g := by
    unfold magnitude
    rw [show (0 : ℝ) * 0 + 0 * 0 + g * g = g ^ 2 by ring, Real.sqrt_sq hg]
  refine ⟨⟨rfl, rfl, ?_⟩, h1⟩
  rw [h1]
  unfold magnitude
  rw [show (-g) * (-g) + 0 * 0 + 0 * 0 = g ^ 2 by ring, Real.sqrt_sq hg]

/-- **C52.** The number of steps reported over a time: for any history whose accelerometer samples lie between `t0` and `t1`
there are at most `(t1 - t0) / 301 + 1` steps. -/
theorem C52_count (ops : List PedoOp) (s : PedoState) (outs : List (List Step)) (h : pedoRun ops = some (s, outs))
    (t0 t1 : Int) (ht : ∀ m ∈ samples ops, t0 ≤ m.ts ∧ m.ts ≤ t1) (hle : t0 ≤ t1) :
    (outs.flatten.length : Int) ≤ (t1 - t0) / 301 + 1 := by
  obtain ⟨h1, -, h3⟩ := C52_spacing ops s outs h
  have hin : ∀ st ∈ outs.flatten, t0 ≤ st.ts ∧ st.ts ≤ t1 := by
    intro st hst
    obtain ⟨m, hm, e⟩ := h3 st hst
    rw [← e]
    exact ht m hm
  generalize outs.flatten = l at h1 hin
  have key : ∀ (l : List Step) (a : Int), l.Pairwise (fun a b => a.ts + 300 < b.ts) → (∀ st ∈ l, a ≤ st.ts ∧ st.ts ≤ t1) →
      l ≠ [] → a + 301 * ((l.length : Int) - 1) ≤ t1 := by
    intro l
    induction l with
    | nil => intro a _ _ h; exact absurd rfl h
    | cons x l ih =>
      intro a hp hi _
      cases l with
      | nil =>
        have := hi x (by simp)
        simp
        omega
      | cons y l =>
        rw [List.pairwise_cons] at hp
        have hx := hi x (by simp)
        have := ih (a + 301) hp.2 (fun st hst => ⟨by have := hp.1 st hst; omega, (hi st (List.mem_cons_of_mem _ hst)).2⟩) (by simp)
        simp only [List.length_cons, Nat.cast_add, Nat.cast_one] at this ⊢
        linarith
  by_cases hl : l = []
  · rw [hl]
    simp
    have : 0 ≤ (t1 - t0) / 301 := Int.ediv_nonneg (by omega) (by norm_num)
    omega
  · have := key l t0 h1 hin hl
    omega

end Verif.Pedo
