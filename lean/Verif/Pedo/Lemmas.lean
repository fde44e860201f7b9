import Verif.Pedo.Spec
import Mathlib.Data.List.Induction
import Mathlib.Tactic.Linarith

/-!
# Helper lemmas for the pedometer
-/

namespace Verif.Pedo

open Verif

theorem scan_ne_nil (last T : Int) (hT : 0 < T) (ms : List SensorMeasurement)
    (h : ∃ m ∈ ms, m.ts = last) : ∃ r, scan last T ms = some r ∧ r ≠ [] ∧ r.Sublist ms ∧
      ∃ m ∈ r, m.ts = last := by
  induction ms with
  | nil => obtain ⟨m, hm, -⟩ := h; simp at hm
  | cons a l ih =>
    unfold scan
    by_cases hc : last - a.ts ≥ T
    · rw [if_pos hc]
      obtain ⟨m, hm, he⟩ := h
      rcases List.mem_cons.mp hm with rfl | hm
      · omega
      · obtain ⟨r, h1, h2, h3, h4⟩ := ih ⟨m, hm, he⟩
        exact ⟨r, h1, h2, h3.cons a, h4⟩
    · rw [if_neg hc]
      exact ⟨_, rfl, by simp, List.Sublist.refl _, h⟩

theorem filtered_some (accel : List SensorMeasurement) (m : SensorMeasurement) :
    ∃ v, calculateFilteredAccMagnitudes (accel ++ [m]) = some ⟨m.ts, v⟩ := by
  unfold calculateFilteredAccMagnitudes
  have hl : (accel ++ [m]).getLast? = some m := by simp
  simp only [hl]
  obtain ⟨r1, h1, n1, -, -⟩ := scan_ne_nil m.ts AVERAGING_TIME_INTERVAL_MS (by decide) (accel ++ [m])
    ⟨m, by simp, rfl⟩
  obtain ⟨r2, h2, n2, -, -⟩ := scan_ne_nil m.ts FILTER_TIME_INTERVAL_MS (by decide) (accel ++ [m])
    ⟨m, by simp, rfl⟩
  simp only [h1, h2]
  rw [if_neg (by simp [n1, n2])]
  exact ⟨_, rfl⟩

theorem popOld_some {α : Type} (ts : α → Int) (limit : Int) (hl : 0 ≤ limit) (l : List α) (x : α) :
    ∃ r, popOld ts limit (l ++ [x]) = some (r ++ [x]) ∧
      (∃ d, l = d ++ r ∧ ∀ y ∈ d, ts x - ts y > limit) ∧
      (∀ a, (r ++ [x]).head? = some a → ts x - ts a ≤ limit) := by
  induction l with
  | nil => exact ⟨[], by simp [popOld, hl], ⟨[], rfl, by simp⟩, by simp [hl]⟩
  | cons a l ih =>
    obtain ⟨r, h1, ⟨d, h2, hd⟩, h3⟩ := ih
    rw [List.cons_append]
    unfold popOld
    have : (a :: (l ++ [x])).getLast (by simp) = x := by
      rw [List.getLast_cons (by simp)]
      simp
    rw [this]
    by_cases hc : ts x - ts a > limit
    · rw [if_pos hc]
      refine ⟨r, h1, ⟨a :: d, by rw [h2]; rfl, ?_⟩, h3⟩
      intro y hy
      rcases List.mem_cons.mp hy with rfl | hy
      · exact hc
      · exact hd y hy
    · rw [if_neg hc]
      refine ⟨a :: l, rfl, ⟨[], rfl, by simp⟩, ?_⟩
      intro b hb
      simp only [List.cons_append, List.head?_cons, Option.some.injEq] at hb
      rw [← hb]
      exact not_lt.mp hc

theorem push_spec (s : PedoState) (m : SensorMeasurement) :
    ∃ v r, push s m = some { s with
        accel := r ++ [m], mags := if m.ts ≠ 0 then s.mags ++ [⟨m.ts, v⟩] else s.mags } ∧
      (∃ d, s.accel = d ++ r ∧ ∀ y ∈ d, m.ts - y.ts > 5000) ∧ (∀ a, (r ++ [m]).head? = some a → m.ts - a.ts ≤ 5000) ∧
      calculateFilteredAccMagnitudes (s.accel ++ [m]) = some ⟨m.ts, v⟩ := by
  obtain ⟨v, hv⟩ := filtered_some s.accel m
  obtain ⟨r, h1, h2, h3⟩ := popOld_some Stamped.ts (2 * AVERAGING_TIME_INTERVAL_MS) (by decide) s.accel m
  refine ⟨v, r, ?_, h2, h3, hv⟩
  unfold push
  simp only [hv, h1]

theorem leftBorder_some (mags : List Magnitude) (rts T : Int) (n : ℕ) (hn : n < mags.length) :
    ∃ k, leftBorder mags rts T n = some k ∧ k ≤ n := by
  induction n with
  | zero => exact ⟨0, rfl, le_refl _⟩
  | succ n ih =>
    obtain ⟨k, h1, h2⟩ := ih (by omega)
    unfold leftBorder
    rw [List.getElem?_eq_getElem hn]
    dsimp only
    split_ifs
    · exact ⟨k, h1, by omega⟩
    · exact ⟨n + 1, rfl, le_refl _⟩

theorem maxFold_ge (l : List Magnitude) (a : ℝ) :
    a ≤ l.foldl (fun best m => if best < m.value then m.value else best) a := by
  induction l generalizing a with
  | nil => exact le_refl _
  | cons m l ih =>
    rw [List.foldl_cons]
    refine le_trans ?_ (ih _)
    split_ifs with h
    · exact h.le
    · exact le_refl _

theorem minFold_le (l : List Magnitude) (a : ℝ) :
    l.foldl (fun best m => if m.value < best then m.value else best) a ≤ a := by
  induction l generalizing a with
  | nil => exact le_refl _
  | cons m l ih =>
    rw [List.foldl_cons]
    refine le_trans (ih _) ?_
    split_ifs with h
    · exact h.le
    · exact le_refl _

theorem min_le_max (r : Magnitude) (l : List Magnitude) : minElement r l ≤ maxElement r l := by
  cases l with
  | nil => exact le_refl _
  | cons a l => exact (minFold_le l a.value).trans (maxFold_ge l a.value)

theorem length_div (r : Magnitude) (l : List Magnitude) : root (root (maxElement r l - minElement r l)) =
    Real.sqrt (Real.sqrt (maxElement r l - minElement r l)) := by
  rw [root_eq (sub_nonneg.mpr (min_le_max r l)), root_eq (Real.sqrt_nonneg _)]

theorem stepLength_some (mags : List Magnitude) (T : Int) (i : ℕ) (hi : i < mags.length) :
    ∃ x, calculateStepLength mags T i = some x ∧ 0 ≤ x := by
  unfold calculateStepLength
  rw [List.getElem?_eq_getElem hi]
  dsimp only
  obtain ⟨k, h1, -⟩ := leftBorder_some mags mags[i].ts T i hi
  rw [h1]
  refine ⟨_, rfl, ?_⟩
  apply mul_nonneg
  · unfold STEP_LENGTH_CONST; norm_num
  · rw [length_div]; exact Real.sqrt_nonneg _

theorem between_pos (times : List Int) : timeBetweenSteps times > 0 := by
  unfold timeBetweenSteps MIN_TIME_BETWEEN_STEPS_MS
  refine lt_of_lt_of_le ?_ (le_max_left _ _)
  norm_num

/-- The detection condition for the pair of neighbouring magnitudes `p`, `c`. -/
def Crossing (p c : Magnitude) (lastTs : Int) : Prop :=
  p.value < MINIMAL_THRESHOLD_VALUE ∧ c.value > MINIMAL_THRESHOLD_VALUE ∧ c.ts - lastTs > 300

/-- What one loop iteration does in a state between two steps. -/
theorem stepBody_spec (b : ℝ) (hb : b > 0) (i : ℕ) (s : PedoState) (steps : List Step) (h0 : s.isStep = false)
    (hi : i + 1 < s.mags.length) :
    (Crossing (s.mags[i]'(by omega)) s.mags[i + 1] s.possibleTs ∧ ∃ len, 0 ≤ len ∧
        calculateStepLength s.mags 700 (i + 1) = some len ∧
        stepBody b (i + 1) (s, steps) = some ({ s with
          times := if s.mags[i + 1].ts - s.stepTime < 2000 then s.times ++ [s.mags[i + 1].ts - s.stepTime]
            else s.times,
          possibleTs := s.mags[i + 1].ts, stepTime := s.mags[i + 1].ts }, steps ++ [⟨s.mags[i + 1].ts, len⟩])) ∨
    (¬ Crossing (s.mags[i]'(by omega)) s.mags[i + 1] s.possibleTs ∧ stepBody b (i + 1) (s, steps) = some (s, steps)) := by
  unfold stepBody
  dsimp only
  rw [if_neg (by omega), List.getElem?_eq_getElem hi, show i + 1 - 1 = i by omega,
    List.getElem?_eq_getElem (show i < s.mags.length by omega)]
  dsimp only
  by_cases hc : Crossing (s.mags[i]'(by omega)) s.mags[i + 1] s.possibleTs
  · left
    refine ⟨hc, ?_⟩
    obtain ⟨h1, h2, h3⟩ := hc
    have hcond : s.isStep = false ∧ (s.mags[i]'(by omega)).value < MINIMAL_THRESHOLD_VALUE ∧
        s.mags[i + 1].value > MINIMAL_THRESHOLD_VALUE ∧
        s.mags[i + 1].ts - s.possibleTs > MIN_TIME_BETWEEN_STEPS_MS ∧ b > 0 := ⟨h0, h1, h2, h3, hb⟩
    simp only [if_pos hcond, if_true]
    obtain ⟨x, hx, hx0⟩ := stepLength_some s.mags UPDATE_TIME_INTERVAL_MS (i + 1) hi
    refine ⟨x, hx0, hx, ?_⟩
    rw [hx, ← h0]
    rfl
  · right
    refine ⟨hc, ?_⟩
    have hcond : ¬ (s.isStep = false ∧ (s.mags[i]'(by omega)).value < MINIMAL_THRESHOLD_VALUE ∧
        s.mags[i + 1].value > MINIMAL_THRESHOLD_VALUE ∧
        s.mags[i + 1].ts - s.possibleTs > MIN_TIME_BETWEEN_STEPS_MS ∧ b > 0) :=
      fun h => hc ⟨h.2.1, h.2.2.1, h.2.2.2.1⟩
    simp only [if_neg hcond]
    rw [h0]
    simp

/-- The part of the invariant that concerns step detection; `out` are all steps reported so far and `src`
the samples seen so far. -/
structure Inv (src : List SensorMeasurement) (s : PedoState) (out : List Step) : Prop where
  idle : s.isStep = false
  same : s.stepTime = s.possibleTs
  sized : s.mags ≠ [] → 1 ≤ s.magSize
  spaced : out.Pairwise (fun a b => a.ts + 300 < b.ts)
  lens : ∀ st ∈ out, 0 ≤ st.len
  upto : ∀ st ∈ out, st.ts ≤ s.possibleTs
  origin : ∀ st ∈ out, ∃ m ∈ src, m.ts = st.ts
  mags : ∀ g ∈ s.mags, ∃ m ∈ src, m.ts = g.ts
  times : ∀ t ∈ s.times, 300 < t ∧ t < 2000
  last : s.possibleTs = (out.getLast?.map Step.ts).getD (-1)

theorem inv_init : Inv [] {} [] := by
  constructor <;> simp

theorem inv_push {src : List SensorMeasurement} {s : PedoState} {out : List Step} (h : Inv src s out)
    (hm : 1 ≤ s.magSize) (m : SensorMeasurement) :
    ∃ s', push s m = some s' ∧ Inv (src ++ [m]) s' out ∧ 1 ≤ s'.magSize ∧ s'.times = s.times := by
  obtain ⟨v, r, h1, -, -, -⟩ := push_spec s m
  refine ⟨_, h1, ?_, hm, rfl⟩
  refine ⟨h.idle, h.same, fun _ => hm, h.spaced, h.lens, h.upto, ?_, ?_, h.times, h.last⟩
  · intro st hst
    obtain ⟨x, hx, he⟩ := h.origin st hst
    exact ⟨x, List.mem_append_left _ hx, he⟩
  · intro g hg
    dsimp only at hg
    split_ifs at hg
    · rcases List.mem_append.mp hg with hg | hg
      · obtain ⟨x, hx, he⟩ := h.mags g hg
        exact ⟨x, List.mem_append_left _ hx, he⟩
      · rw [List.mem_singleton] at hg
        exact ⟨m, by simp, by rw [hg]⟩
    · obtain ⟨x, hx, he⟩ := h.mags g hg
      exact ⟨x, List.mem_append_left _ hx, he⟩

theorem inv_size {src : List SensorMeasurement} {s : PedoState} {out : List Step} (h : Inv src s out) (k : ℕ)
    (hk : 1 ≤ k) : Inv src { s with magSize := k } out :=
  ⟨h.idle, h.same, fun _ => hk, h.spaced, h.lens, h.upto, h.origin, h.mags, h.times, h.last⟩

theorem inv_pushes {src : List SensorMeasurement} {s : PedoState} {out : List Step} (h : Inv src s out)
    (hm : 1 ≤ s.magSize) (ms : List SensorMeasurement) :
    ∃ s', ms.foldlM push s = some s' ∧ Inv (src ++ ms) s' out ∧ s'.times = s.times := by
  induction ms generalizing src s with
  | nil => exact ⟨s, rfl, by simpa using h, rfl⟩
  | cons m ms ih =>
    obtain ⟨s1, h1, h2, h3, h4⟩ := inv_push h hm m
    obtain ⟨s2, h5, h6, h7⟩ := ih h2 h3
    refine ⟨s2, ?_, by simpa using h6, h7.trans h4⟩
    rw [List.foldlM_cons, h1]
    exact h5

theorem inv_body {src : List SensorMeasurement} {s : PedoState} {out steps : List Step} (b : ℝ) (hb : b > 0)
    (i : ℕ) (h : Inv src s (out ++ steps)) (hi : i + 1 < s.mags.length) :
    ∃ s' new, stepBody b (i + 1) (s, steps) = some (s', steps ++ new) ∧ Inv src s' (out ++ (steps ++ new)) ∧
      s'.mags = s.mags ∧ s'.magSize = s.magSize ∧ s'.accel = s.accel ∧ new.length ≤ 1 := by
  rcases stepBody_spec b hb i s steps h.idle hi with ⟨⟨-, -, hc⟩, len, hl, -, heq⟩ | ⟨-, heq⟩
  · refine ⟨_, [⟨s.mags[i + 1].ts, len⟩], heq, ?_, rfl, rfl, rfl, by simp⟩
    constructor
    · exact h.idle
    · rfl
    · exact h.sized
    · rw [← List.append_assoc, List.pairwise_append]
      refine ⟨h.spaced, by simp, ?_⟩
      intro a ha c hc'
      rw [List.mem_singleton] at hc'
      subst hc'
      have := h.upto a ha
      dsimp only
      omega
    · intro st hst
      rw [← List.append_assoc] at hst
      rcases List.mem_append.mp hst with hst | hst
      · exact h.lens st hst
      · rw [List.mem_singleton] at hst; rw [hst]; exact hl
    · intro st hst
      rw [← List.append_assoc] at hst
      dsimp only
      rcases List.mem_append.mp hst with hst | hst
      · have := h.upto st hst
        omega
      · rw [List.mem_singleton] at hst; rw [hst]
    · intro st hst
      rw [← List.append_assoc] at hst
      rcases List.mem_append.mp hst with hst | hst
      · exact h.origin st hst
      · rw [List.mem_singleton] at hst; rw [hst]
        exact h.mags _ (List.getElem_mem hi)
    · exact h.mags
    · intro t ht
      dsimp only at ht
      split_ifs at ht with h2
      · rcases List.mem_append.mp ht with ht | ht
        · exact h.times t ht
        · rw [List.mem_singleton] at ht
          rw [h.same] at ht h2
          omega
      · exact h.times t ht
    · rw [← List.append_assoc]
      simp
  · exact ⟨s, [], by rw [heq]; simp, by simpa using h, rfl, rfl, rfl, by simp⟩

theorem inv_loop {src : List SensorMeasurement} (b : ℝ) (hb : b > 0) (n : ℕ) :
    ∀ (i : ℕ) (s : PedoState) (out steps : List Step), Inv src s (out ++ steps) → i + 1 + n ≤ s.mags.length →
    ∃ s' new, stepLoop b (i + 1) n (s, steps) = some (s', steps ++ new) ∧ Inv src s' (out ++ (steps ++ new)) ∧
      s'.mags = s.mags ∧ s'.magSize = s.magSize ∧ s'.accel = s.accel ∧ new.length ≤ n := by
  induction n with
  | zero => intro i s out steps h _; exact ⟨s, [], by simp [stepLoop], by simpa using h, rfl, rfl, rfl, by simp⟩
  | succ n ih =>
    intro i s out steps h hi
    obtain ⟨s1, new, h1, h2, h3, h4, h5, h6⟩ := inv_body b hb i h (by omega)
    obtain ⟨s2, new2, g1, g2, g3, g4, g5, g6⟩ := ih (i + 1) s1 out (steps ++ new) h2 (by rw [h3]; omega)
    refine ⟨s2, new ++ new2, ?_, by simpa using g2, g3.trans h3, g4.trans h4, g5.trans h5, by
      rw [List.length_append]; omega⟩
    unfold stepLoop
    rw [h1, Option.bind_some, g1, List.append_assoc]

theorem inv_steps {src : List SensorMeasurement} {s : PedoState} {out : List Step} (h : Inv src s out)
    (hm : s.times.length ≤ 50) :
    ∃ s' new, calculateSteps s = some (s', new) ∧ Inv src s' (out ++ new) ∧ s'.times.length ≤ 50 ∧
      s'.magSize = s.magSize ∧ s'.accel = s.accel ∧ new.length ≤ s.mags.length - s.magSize ∧
      (∃ d, s.mags = d ++ s'.mags ∧ ∀ y ∈ d, ∀ z, s.mags.getLast? = some z → z.ts - y.ts > 1400) ∧
      (3 < s'.mags.length → ∀ a z, s'.mags.head? = some a → s'.mags.getLast? = some z → z.ts - a.ts ≤ 1400) := by
  unfold calculateSteps
  by_cases hl : s.mags.length ≤ 3
  · rw [if_pos hl]
    exact ⟨s, [], rfl, by simpa using h, hm, rfl, rfl, by simp, ⟨[], rfl, by simp⟩, fun h => by omega⟩
  · rw [if_neg hl]
    have hne : s.mags ≠ [] := by intro h; simp [h] at hl
    have h1 := h.sized hne
    obtain ⟨i, hi⟩ : ∃ i, s.magSize = i + 1 := ⟨s.magSize - 1, by omega⟩
    have hloop : ∃ s' new, stepLoop (timeBetweenSteps s.times) s.magSize (s.mags.length - s.magSize) (s, []) =
        some (s', new) ∧ Inv src s' (out ++ new) ∧ s'.mags = s.mags ∧ s'.magSize = s.magSize ∧
        s'.accel = s.accel ∧ new.length ≤ s.mags.length - s.magSize := by
      rw [hi]
      by_cases hle : i + 1 ≤ s.mags.length
      · obtain ⟨s', new, g1, g2, g3, g4, g5, g6⟩ := inv_loop (timeBetweenSteps s.times) (between_pos _)
          (s.mags.length - (i + 1)) i s out [] (by simpa using h) (by omega)
        exact ⟨s', new, by simpa using g1, by simpa using g2, g3, g4.trans hi, g5, g6⟩
      · rw [show s.mags.length - (i + 1) = 0 by omega]
        exact ⟨s, [], rfl, by simpa using h, rfl, hi, rfl, by simp⟩
    obtain ⟨s', new, g1, g2, g3, g4, g5, g6⟩ := hloop
    rw [g1]
    dsimp only
    obtain ⟨l, x, hlx⟩ : ∃ l x, s'.mags = l ++ [x] := by
      rw [g3]
      exact ⟨s.mags.dropLast, s.mags.getLast hne, (List.dropLast_append_getLast hne).symm⟩
    obtain ⟨r, p1, ⟨d, p2, pd⟩, p3⟩ := popOld_some Magnitude.ts (2 * UPDATE_TIME_INTERVAL_MS) (by decide) l x
    rw [hlx, p1]
    dsimp only
    have hsuf : s'.mags = d ++ (r ++ [x]) := by rw [hlx, p2, List.append_assoc]
    refine ⟨_, new, rfl, ?_, ?_, g4, g5, g6, ⟨d, by rw [← g3]; exact hsuf, ?_⟩, ?_⟩
    · refine ⟨g2.idle, g2.same, fun _ => by rw [g4]; exact h1, g2.spaced, g2.lens, g2.upto, g2.origin, ?_, ?_, g2.last⟩
      · intro g hg
        exact g2.mags g (by rw [hsuf]; exact List.mem_append_right _ hg)
      · intro t ht
        exact g2.times t (List.mem_of_mem_drop ht)
    · dsimp only
      unfold trimTimes MAXIMUM_NUMBER_OF_STEPS
      rw [List.length_drop]
      omega
    · intro y hy z hz
      rw [← g3, hlx] at hz
      simp only [List.getLast?_append, List.getLast?_singleton, Option.some_or, Option.some.injEq] at hz
      rw [← hz]
      exact pd y hy
    · intro _ a z ha hz
      simp only [List.getLast?_append, List.getLast?_singleton, Option.some_or, Option.some.injEq] at hz
      rw [← hz]
      exact p3 a ha

/-- What is known after any history. -/
theorem run_inv (ops : List PedoOp) :
    ∃ s outs, pedoRun ops = some (s, outs) ∧ outs.length = ops.length ∧ Inv (samples ops) s outs.flatten ∧
      s.times.length ≤ 50 := by
  induction ops using List.reverseRecOn with
  | nil => exact ⟨{}, [], rfl, rfl, inv_init, by simp⟩
  | append_singleton ops op ih =>
    obtain ⟨s, outs, h1, h2, h3, h4⟩ := ih
    have hrun : pedoRun (ops ++ [op]) = pedoRecord (s, outs) op := by
      unfold pedoRun at h1 ⊢
      rw [List.foldlM_append, h1]
      simp [List.foldlM]
    have hsrc : samples (ops ++ [op]) = samples ops ++ opSamples op := by simp [samples]
    rw [hrun, hsrc]
    unfold pedoRecord
    cases op with
    | sample m =>
      by_cases hm : m.data.type = SensorType.ACCELEROMETER
      · obtain ⟨s', g1, g2, -, g4⟩ := inv_push (inv_size h3 (max s.mags.length 1) (le_max_right _ _))
          (le_max_right _ _) m
        refine ⟨s', outs ++ [[]], ?_, by simp [h2], by simpa [opSamples, hm] using g2, by rw [g4]; exact h4⟩
        simp [pedoStep, update, hm, g1]
      · refine ⟨{ s with magSize := max s.mags.length 1 }, outs ++ [[]], ?_, by simp [h2], ?_, h4⟩
        · simp [pedoStep, update, hm]
        · simpa [opSamples, hm] using inv_size h3 (max s.mags.length 1) (le_max_right _ _)
    | batch ms =>
      obtain ⟨s', g1, g2, g3⟩ := inv_pushes (inv_size h3 (max s.mags.length 1) (le_max_right _ _))
          (le_max_right _ _) ms
      refine ⟨s', outs ++ [[]], ?_, by simp [h2], by simpa [opSamples] using g2, by rw [g3]; exact h4⟩
      simp [pedoStep, updateBatch, g1]
    | steps =>
      obtain ⟨s', new, g1, g2, g3, -⟩ := inv_steps h3 h4
      refine ⟨s', outs ++ [new], ?_, by simp [h2], by simpa [opSamples] using g2, g3⟩
      simp [pedoStep, g1]

end Verif.Pedo
