import Verif.Nan.PedoSpec
import Verif.Nan.Props
import Verif.Pedo.Props

/-!
# C147: an accelerometer sample that is not a number
-/

namespace Verif.Nan.Walk

open Verif.Pedo (AVERAGING_TIME_INTERVAL_MS FILTER_TIME_INTERVAL_MS UPDATE_TIME_INTERVAL_MS MIN_TIME_BETWEEN_STEPS_MS
  STEP_LENGTH_CONST MINIMAL_THRESHOLD_VALUE MAX_STEP_TIME timeBetweenSteps popOld trimTimes)

variable {α : Type} {A : Arithmetic α}

theorem bad_magnitude (hA : Propagates A) (v : Vec α) (h : Bad A v) : A.nan (magnitude A v) := by
  unfold magnitude
  apply hA.sqrt
  rcases h with h | h | h
  · exact hA.add _ _ (Or.inl (hA.add _ _ (Or.inl (hA.mul _ _ (Or.inl h)))))
  · exact hA.add _ _ (Or.inl (hA.add _ _ (Or.inr (hA.mul _ _ (Or.inl h)))))
  · exact hA.add _ _ (Or.inr (hA.mul _ _ (Or.inl h)))

theorem fold_bad (hA : Propagates A) (l : List (Msr α)) (a : α) (h : A.nan a ∨ ∃ b ∈ l, Bad A b.values) :
    A.nan (l.foldl (fun sum m => A.add sum (magnitude A m.values)) a) := by
  induction l generalizing a with
  | nil => simpa using h
  | cons m l ih =>
    rw [List.foldl_cons]
    apply ih
    rcases h with h | ⟨b, hb, hn⟩
    · exact Or.inl (hA.add _ _ (Or.inl h))
    · rcases List.mem_cons.mp hb with rfl | hb
      · exact Or.inl (hA.add _ _ (Or.inr (bad_magnitude hA _ hn)))
      · exact Or.inr ⟨b, hb, hn⟩

theorem scan_some (last T : Int) (ms : List (Msr α)) (h : ∃ m ∈ ms, last - m.ts < T) :
    ∃ r, scan last T ms = some r ∧ r ≠ [] ∧ ∀ m ∈ ms, last - m.ts < T → m ∈ r := by
  induction ms with
  | nil => obtain ⟨m, hm, -⟩ := h; simp at hm
  | cons a l ih =>
    unfold scan
    by_cases hc : last - a.ts ≥ T
    · rw [if_pos hc]
      obtain ⟨m, hm, he⟩ := h
      rcases List.mem_cons.mp hm with rfl | hm
      · omega
      · obtain ⟨r, h1, h2, h3⟩ := ih ⟨m, hm, he⟩
        refine ⟨r, h1, h2, ?_⟩
        intro x hx hl
        rcases List.mem_cons.mp hx with rfl | hx
        · omega
        · exact h3 x hx hl
    · rw [if_neg hc]
      exact ⟨_, rfl, by simp, fun x hx _ => hx⟩

theorem filtered_spec (hA : Propagates A) (accel : List (Msr α)) (m : Msr α) :
    ∃ v, filtered A (accel ++ [m]) = some ⟨m.ts, v⟩ ∧
      ((∃ b ∈ accel ++ [m], Bad A b.values ∧ m.ts - b.ts < 2500) → A.nan v) := by
  unfold filtered
  have hl : (accel ++ [m]).getLast? = some m := by simp
  simp only [hl]
  obtain ⟨r1, h1, n1, k1⟩ := scan_some m.ts AVERAGING_TIME_INTERVAL_MS (accel ++ [m]) ⟨m, by simp, by simp [AVERAGING_TIME_INTERVAL_MS]⟩
  obtain ⟨r2, h2, n2, -⟩ := scan_some m.ts FILTER_TIME_INTERVAL_MS (accel ++ [m]) ⟨m, by simp, by simp [FILTER_TIME_INTERVAL_MS]⟩
  simp only [h1, h2]
  rw [if_neg (by simp [n1, n2])]
  refine ⟨_, rfl, ?_⟩
  rintro ⟨b, hb, hn, ht⟩
  have hs : A.nan (sumMagn A r1) := fold_bad hA _ _ (Or.inr ⟨b, k1 b hb ht, hn⟩)
  exact hA.sub _ _ (Or.inr (hA.div _ _ (Or.inl (hA.add _ _ (Or.inl hs)))))

theorem leftBorder_some (mags : List (Magnitude α)) (rts T : Int) (n : ℕ) (hn : n < mags.length) :
    ∃ k, leftBorder mags rts T n = some k := by
  induction n with
  | zero => exact ⟨0, rfl⟩
  | succ n ih =>
    obtain ⟨k, h1⟩ := ih (by omega)
    unfold leftBorder
    rw [List.getElem?_eq_getElem hn]
    dsimp only
    split_ifs
    · exact ⟨k, h1⟩
    · exact ⟨n + 1, rfl⟩

theorem stepLength_some (mags : List (Magnitude α)) (T : Int) (i : ℕ) (hi : i < mags.length) :
    ∃ v, stepLength A mags T i = some v := by
  unfold stepLength
  rw [List.getElem?_eq_getElem hi]
  obtain ⟨k, hk⟩ := leftBorder_some mags (mags[i]).ts T i hi
  simp only [hk]
  exact ⟨_, rfl⟩

/-- What the pedometer has of the samples `ms` and what it has told. -/
structure Inv (A : Arithmetic α) (ms : List (Msr α)) (s : State α) (out : List (Step α)) : Prop where
  idle : s.isStep = false
  size : 3 < s.mags.length → 1 ≤ s.magSize
  kept : ∀ x ∈ ms, x ∈ s.accel ∨ ∃ z ∈ ms, z.ts - x.ts > 5000
  origin : ∀ g ∈ s.mags, ∃ m ∈ ms, m.ts = g.ts
  blind : ∀ g ∈ s.mags, ∀ b ∈ ms, Bad A b.values → b.ts < g.ts → g.ts < b.ts + 2500 → A.nan g.value
  told : ∀ st ∈ out, ∃ m ∈ ms, m.ts = st.ts
  quiet : ∀ st ∈ out, ∀ b ∈ ms, Bad A b.values → ¬ (b.ts < st.ts ∧ st.ts < b.ts + 2500)

theorem inv_push (hA : Propagates A) {ms : List (Msr α)} {s : State α} {out : List (Step α)} (h : Inv A ms s out) (m : Msr α)
    (ho : Ordered (ms ++ [m])) (hs : 1 ≤ s.magSize) : ∃ s', push A s m = some s' ∧ Inv A (ms ++ [m]) s' out ∧ 1 ≤ s'.magSize := by
  obtain ⟨v, hv, hbad⟩ := filtered_spec hA s.accel m
  obtain ⟨r, h1, ⟨d, h2, h3⟩, -⟩ := Pedo.popOld_some Msr.ts (2 * AVERAGING_TIME_INTERVAL_MS) (by decide) s.accel m
  have hle : ∀ x ∈ ms, x.ts ≤ m.ts := by
    intro x hx
    exact (List.pairwise_append.mp ho).2.2 x hx m (by simp)
  have hnew : ∀ b ∈ ms ++ [m], Bad A b.values → b.ts < m.ts → m.ts < b.ts + 2500 → A.nan v := by
    intro b hb hn hlt hgt
    apply hbad
    refine ⟨b, ?_, hn, by omega⟩
    rcases List.mem_append.mp hb with hb | hb
    · rcases h.kept b hb with hk | ⟨z, hz, hzt⟩
      · exact List.mem_append_left _ hk
      · have := hle z hz
        omega
    · exact List.mem_append_right _ hb
  refine ⟨{ s with accel := r ++ [m], mags := if m.ts ≠ 0 then s.mags ++ [⟨m.ts, v⟩] else s.mags }, ?_, ?_, hs⟩
  · unfold push
    simp only [hv, h1]
  · refine ⟨h.idle, fun _ => hs, ?_, ?_, ?_, ?_, ?_⟩
    · intro x hx
      rcases List.mem_append.mp hx with hx | hx
      · rcases h.kept x hx with hk | ⟨z, hz, hzt⟩
        · rw [h2] at hk
          rcases List.mem_append.mp hk with hk | hk
          · exact Or.inr ⟨m, by simp, by simpa [AVERAGING_TIME_INTERVAL_MS] using h3 x hk⟩
          · exact Or.inl (List.mem_append_left _ hk)
        · exact Or.inr ⟨z, List.mem_append_left _ hz, hzt⟩
      · exact Or.inl (List.mem_append_right _ hx)
    · intro g hg
      have : g ∈ s.mags ++ [(⟨m.ts, v⟩ : Magnitude α)] := by
        dsimp only at hg
        split_ifs at hg
        · exact hg
        · exact List.mem_append_left _ hg
      rcases List.mem_append.mp this with hg | hg
      · obtain ⟨x, hx, he⟩ := h.origin g hg
        exact ⟨x, List.mem_append_left _ hx, he⟩
      · rw [List.mem_singleton] at hg
        exact ⟨m, by simp, by rw [hg]⟩
    · intro g hg b hb hn hlt hgt
      have : g ∈ s.mags ++ [(⟨m.ts, v⟩ : Magnitude α)] := by
        dsimp only at hg
        split_ifs at hg
        · exact hg
        · exact List.mem_append_left _ hg
      rcases List.mem_append.mp this with hg | hg
      · rcases List.mem_append.mp hb with hb | hb
        · exact h.blind g hg b hb hn hlt hgt
        · rw [List.mem_singleton] at hb
          obtain ⟨x, hx, he⟩ := h.origin g hg
          have := hle x hx
          rw [hb] at hlt
          omega
      · rw [List.mem_singleton] at hg
        rw [hg] at hlt hgt ⊢
        exact hnew b hb hn hlt hgt
    · intro st hst
      obtain ⟨x, hx, he⟩ := h.told st hst
      exact ⟨x, List.mem_append_left _ hx, he⟩
    · intro st hst b hb hn
      rcases List.mem_append.mp hb with hb | hb
      · exact h.quiet st hst b hb hn
      · rw [List.mem_singleton] at hb
        obtain ⟨x, hx, he⟩ := h.told st hst
        have := hle x hx
        rw [hb]
        omega

theorem inv_size {ms : List (Msr α)} {s : State α} {out : List (Step α)} (h : Inv A ms s out) (k : ℕ) (hk : 1 ≤ k) :
    Inv A ms { s with magSize := k } out := ⟨h.idle, fun _ => hk, h.kept, h.origin, h.blind, h.told, h.quiet⟩

theorem inv_pushes (hA : Propagates A) (l : List (Msr α)) : ∀ {ms : List (Msr α)} {s : State α} {out : List (Step α)},
    Inv A ms s out → Ordered (ms ++ l) → 1 ≤ s.magSize →
      ∃ s', l.foldlM (push A) s = some s' ∧ Inv A (ms ++ l) s' out := by
  induction l with
  | nil =>
    intro ms s out h _ _
    exact ⟨s, rfl, by simpa using h⟩
  | cons m l ih =>
    intro ms s out h ho hs
    have e : ms ++ m :: l = (ms ++ [m]) ++ l := by simp
    rw [e] at ho ⊢
    obtain ⟨s1, h1, h2, h3⟩ := inv_push hA h m (List.pairwise_append.mp ho).1 hs
    obtain ⟨s2, h4, h5⟩ := ih h2 ho h3
    refine ⟨s2, ?_, h5⟩
    rw [List.foldlM_cons, h1]
    exact h4

theorem inv_body (hA : Propagates A) {ms : List (Msr α)} {s : State α} {out steps : List (Step α)} (b : ℝ) (i : ℕ)
    (h : Inv A ms s (out ++ steps)) (h0 : i ≠ 0) (hi : i < s.mags.length) :
    ∃ s' steps', stepBody A b i (s, steps) = some (s', steps') ∧ Inv A ms s' (out ++ steps') ∧ s'.mags = s.mags ∧
      s'.magSize = s.magSize := by
  unfold stepBody
  dsimp only
  rw [if_neg h0, List.getElem?_eq_getElem hi, List.getElem?_eq_getElem (show i - 1 < s.mags.length by omega)]
  dsimp only
  by_cases hc : s.isStep = false ∧ A.lt (s.mags[i - 1]).value (A.lit MINIMAL_THRESHOLD_VALUE) ∧
      A.lt (A.lit MINIMAL_THRESHOLD_VALUE) (s.mags[i]).value ∧
      (s.mags[i]).ts - s.possibleTs > MIN_TIME_BETWEEN_STEPS_MS ∧ b > 0
  · rw [if_pos hc]
    obtain ⟨v, hv⟩ := stepLength_some (A := A) s.mags UPDATE_TIME_INTERVAL_MS i hi
    simp only [if_true, hv]
    refine ⟨_, _, rfl, ?_, rfl, rfl⟩
    have hn : ¬ A.nan (s.mags[i]).value := fun hn => hA.lt _ _ (Or.inr hn) hc.2.2.1
    have hm : s.mags[i] ∈ s.mags := List.getElem_mem hi
    refine ⟨rfl, h.size, h.kept, h.origin, h.blind, ?_, ?_⟩
    · intro st hst
      rw [← List.append_assoc] at hst
      rcases List.mem_append.mp hst with hst | hst
      · exact h.told st hst
      · rw [List.mem_singleton] at hst
        rw [hst]
        exact h.origin _ hm
    · intro st hst x hx hb
      rw [← List.append_assoc] at hst
      rcases List.mem_append.mp hst with hst | hst
      · exact h.quiet st hst x hx hb
      · rw [List.mem_singleton] at hst
        rw [hst]
        rintro ⟨h1, h2⟩
        exact hn (h.blind _ hm x hx hb h1 h2)
  · rw [if_neg hc, if_neg (by rw [h.idle]; simp)]
    exact ⟨s, steps, rfl, h, rfl, rfl⟩

theorem inv_loop (hA : Propagates A) {ms : List (Msr α)} {out : List (Step α)} (b : ℝ) (n : ℕ) :
    ∀ (i : ℕ) (s : State α) (steps : List (Step α)), Inv A ms s (out ++ steps) → i ≠ 0 → i + n ≤ s.mags.length →
      ∃ s' steps', stepLoop A b i n (s, steps) = some (s', steps') ∧ Inv A ms s' (out ++ steps') ∧ s'.mags = s.mags ∧
        s'.magSize = s.magSize := by
  induction n with
  | zero =>
    intro i s steps h _ _
    exact ⟨s, steps, rfl, h, rfl, rfl⟩
  | succ n ih =>
    intro i s steps h h0 hi
    obtain ⟨s1, t1, h1, h2, h3, h4⟩ := inv_body hA b i h h0 (by omega)
    obtain ⟨s2, t2, h5, h6, h7, h8⟩ := ih (i + 1) s1 t1 h2 (by omega) (by rw [h3]; omega)
    refine ⟨s2, t2, ?_, h6, by rw [h7, h3], by rw [h8, h4]⟩
    unfold stepLoop
    rw [h1]
    exact h5

theorem inv_steps (hA : Propagates A) {ms : List (Msr α)} {s : State α} {out : List (Step α)} (h : Inv A ms s out) :
    ∃ s' steps, calculateSteps A s = some (s', steps) ∧ Inv A ms s' (out ++ steps) := by
  unfold calculateSteps
  by_cases hl : s.mags.length ≤ 3
  · rw [if_pos hl]
    exact ⟨s, [], rfl, by simpa using h⟩
  · rw [if_neg hl]
    have hs := h.size (by omega)
    have hloop : ∃ s' steps', stepLoop A (timeBetweenSteps s.times) s.magSize (s.mags.length - s.magSize) (s, []) = some (s', steps') ∧
        Inv A ms s' (out ++ steps') ∧ s'.mags = s.mags ∧ s'.magSize = s.magSize := by
      by_cases hle : s.magSize ≤ s.mags.length
      · exact inv_loop hA _ _ _ s [] (by simpa using h) (by omega) (by omega)
      · rw [show s.mags.length - s.magSize = 0 by omega]
        exact ⟨s, [], rfl, by simpa using h, rfl, rfl⟩
    obtain ⟨s1, t1, h1, h2, h3, h4⟩ := hloop
    simp only [h1]
    have hne : s1.mags ≠ [] := by
      intro e
      rw [← h3, e] at hl
      simp at hl
    obtain ⟨l, x, hlx⟩ : ∃ l x, s1.mags = l ++ [x] := ⟨_, _, (List.dropLast_append_getLast hne).symm⟩
    obtain ⟨r, p1, ⟨d, p2, -⟩, -⟩ := Pedo.popOld_some Magnitude.ts (2 * UPDATE_TIME_INTERVAL_MS) (by decide) l x
    rw [hlx]
    simp only [p1]
    refine ⟨_, _, rfl, ?_⟩
    have hsub : ∀ g ∈ r ++ [x], g ∈ s1.mags := by
      intro g hg
      rw [hlx, p2]
      rcases List.mem_append.mp hg with hg | hg
      · exact List.mem_append_left _ (List.mem_append_right _ hg)
      · exact List.mem_append_right _ hg
    exact ⟨h2.idle, fun _ => by rw [h4]; exact hs, h2.kept, fun g hg => h2.origin g (hsub g hg),
      fun g hg => h2.blind g (hsub g hg), h2.told, h2.quiet⟩

theorem run_inv (hA : Propagates A) (ops : List (Op α)) (ho : Ordered (samples ops)) :
    ∃ s outs, run A ops = some (s, outs) ∧ Inv A (samples ops) s outs.flatten := by
  induction ops using List.reverseRecOn with
  | nil => exact ⟨{}, [], rfl, by constructor <;> simp [samples]⟩
  | append_singleton ops op ih =>
    have es : samples (ops ++ [op]) = samples ops ++ opSamples op := by simp [samples]
    rw [es] at ho ⊢
    obtain ⟨s, outs, h1, h2⟩ := ih (List.pairwise_append.mp ho).1
    have hrun : run A (ops ++ [op]) = record A (s, outs) op := by
      unfold run at h1 ⊢
      rw [List.foldlM_append, h1]
      simp [List.foldlM]
    rw [hrun]
    unfold record
    have hk : 1 ≤ max s.mags.length 1 := le_max_right _ _
    have hsz := inv_size h2 _ hk
    cases op with
    | sample m =>
      by_cases hm : m.type = SensorType.ACCELEROMETER
      · have e : opSamples (.sample m) = [m] := by simp [opSamples, hm]
        rw [e] at ho ⊢
        obtain ⟨s', p1, p2, -⟩ := inv_push hA hsz m ho hk
        refine ⟨s', outs ++ [[]], ?_, by simpa using p2⟩
        simp only [call, update, hm, if_true, p1, Option.map_some]
      · have e : opSamples (.sample m) = [] := by simp [opSamples, hm]
        rw [e]
        refine ⟨{ s with magSize := max s.mags.length 1 }, outs ++ [[]], ?_, by simpa using hsz⟩
        simp only [call, update, hm, if_false, Option.map_some]
    | batch l =>
      obtain ⟨s', p1, p2⟩ := inv_pushes hA l hsz ho hk
      refine ⟨s', outs ++ [[]], ?_, by simpa [opSamples] using p2⟩
      simp only [call, updateBatch, p1, Option.map_some]
    | steps =>
      obtain ⟨s', t, p1, p2⟩ := inv_steps hA h2
      refine ⟨s', outs ++ [t], ?_, by simpa [opSamples] using p2⟩
      simp only [call, p1, Option.map_some]

/-- **C147.** The samples in the order of their times, whatever the calls: no step is told that lies after a sample that is not a number and
less than two and a half seconds after it. -/
theorem C147_blind (hA : Propagates A) (ops : List (Op α)) (ho : Ordered (samples ops)) (b : Msr α) (hb : b ∈ samples ops)
    (hn : Bad A b.values) : ∃ s outs, run A ops = some (s, outs) ∧
      ∀ st ∈ outs.flatten, st.ts ≤ b.ts ∨ b.ts + 2500 ≤ st.ts := by
  obtain ⟨s, outs, h1, h2⟩ := run_inv hA ops ho
  refine ⟨s, outs, h1, fun st hst => ?_⟩
  have := h2.quiet st hst b hb hn
  omega

/-- A filtered magnitude that is a number. -/
def ofMag (g : Pedo.Magnitude) : Magnitude (Option ℝ) := ⟨g.ts, some g.value⟩

/-- A state of numbers. -/
def ofState (s : Pedo.PedoState) : State (Option ℝ) :=
  ⟨s.accel.map ofMeasurement, s.mags.map ofMag, s.times, s.magSize, s.possibleTs, s.stepTime, s.isStep⟩

theorem magnitude_of (m : SensorMeasurement) : magnitude exact (ofMeasurement m).values = some (Pedo.magnitude m.data.values) := by
  have h : ¬ (m.data.values.x * m.data.values.x + m.data.values.y * m.data.values.y + m.data.values.z * m.data.values.z < 0) := by
    nlinarith [mul_self_nonneg m.data.values.x, mul_self_nonneg m.data.values.y, mul_self_nonneg m.data.values.z]
  simp [magnitude, exact, ofMeasurement, Pedo.magnitude, h]

theorem scan_of (last T : Int) (ms : List SensorMeasurement) :
    scan last T (ms.map ofMeasurement) = (Pedo.scan last T ms).map (List.map ofMeasurement) := by
  induction ms with
  | nil => rfl
  | cons m ms ih =>
    rw [List.map_cons]
    unfold scan Pedo.scan
    rw [show (ofMeasurement m).ts = m.ts from rfl]
    split_ifs
    · exact ih
    · rfl

theorem sum_of (l : List SensorMeasurement) : sumMagn exact (l.map ofMeasurement) = some (Pedo.sumMagn l) := by
  have key : ∀ a : ℝ, (l.map ofMeasurement).foldl (fun sum m => exact.add sum (magnitude exact m.values)) (some a) =
      some (l.foldl (fun sum m => sum + Pedo.magnitude m.data.values) a) := by
    induction l with
    | nil => intro a; rfl
    | cons m l ih =>
      intro a
      rw [List.map_cons, List.foldl_cons, List.foldl_cons, magnitude_of]
      exact ih _
  exact key 0

theorem filtered_of (accel : List SensorMeasurement) :
    filtered exact (accel.map ofMeasurement) = (Pedo.calculateFilteredAccMagnitudes accel).map ofMag := by
  unfold filtered Pedo.calculateFilteredAccMagnitudes
  rw [List.getLast?_map]
  cases accel.getLast? with
  | none => rfl
  | some last =>
    simp only [Option.map_some, scan_of]
    rw [show (ofMeasurement last).ts = last.ts from rfl]
    cases Pedo.scan last.ts AVERAGING_TIME_INTERVAL_MS accel with
    | none => rfl
    | some aver =>
      cases Pedo.scan last.ts FILTER_TIME_INTERVAL_MS accel with
      | none => rfl
      | some filt =>
        simp only [Option.map_some, List.length_map]
        by_cases h : aver.length = 0 ∨ filt.length = 0
        · rw [if_pos h, if_pos h]
          rfl
        · rw [if_neg h, if_neg h]
          push Not at h
          have ha : (aver.length : ℝ) ≠ 0 := by exact_mod_cast h.1
          have hf : (filt.length : ℝ) ≠ 0 := by exact_mod_cast h.2
          rw [sum_of, sum_of]
          simp [exact, ha, hf, ofMag, divide_eq]

theorem popOld_of {β γ : Type} (f : β → γ) (ts : γ → Int) (limit : Int) (l : List β) :
    popOld ts limit (l.map f) = (popOld (fun x => ts (f x)) limit l).map (List.map f) := by
  induction l with
  | nil => rfl
  | cons a l ih =>
    rw [List.map_cons]
    unfold popOld
    have e : (f a :: l.map f).getLast (by simp) = f ((a :: l).getLast (by simp)) := by
      rw [← List.getLast_map (f := f) (l := a :: l) (by simp)]
      rfl
    rw [e]
    split_ifs
    · exact ih
    · rfl

theorem push_of (s : Pedo.PedoState) (m : SensorMeasurement) :
    push exact (ofState s) (ofMeasurement m) = (Pedo.push s m).map ofState := by
  unfold push Pedo.push
  have e : (ofState s).accel ++ [ofMeasurement m] = (s.accel ++ [m]).map ofMeasurement := by simp [ofState]
  simp only [e, filtered_of]
  cases Pedo.calculateFilteredAccMagnitudes (s.accel ++ [m]) with
  | none => rfl
  | some g =>
    simp only [Option.map_some]
    rw [popOld_of]
    rw [show (fun x => (ofMeasurement x).ts) = Stamped.ts from rfl]
    cases popOld Stamped.ts (2 * AVERAGING_TIME_INTERVAL_MS) (s.accel ++ [m]) with
    | none => rfl
    | some r =>
      simp only [Option.map_some, ofState]
      rw [show (ofMag g).ts = g.ts from rfl]
      split_ifs <;> simp

theorem size_of (s : Pedo.PedoState) :
    ({ ofState s with magSize := max (ofState s).mags.length 1 } : State (Option ℝ)) = ofState { s with magSize := max s.mags.length 1 } := by
  simp [ofState]

theorem pushes_of (l : List SensorMeasurement) (s : Pedo.PedoState) :
    (l.map ofMeasurement).foldlM (push exact) (ofState s) = (l.foldlM Pedo.push s).map ofState := by
  induction l generalizing s with
  | nil => rfl
  | cons m l ih =>
    rw [List.map_cons, List.foldlM_cons, List.foldlM_cons, push_of]
    cases Pedo.push s m with
    | none => rfl
    | some s' => exact ih s'

theorem left_of (mags : List Pedo.Magnitude) (rts T : Int) (n : ℕ) :
    leftBorder (mags.map ofMag) rts T n = Pedo.leftBorder mags rts T n := by
  induction n with
  | zero => rfl
  | succ n ih =>
    unfold leftBorder Pedo.leftBorder
    rw [List.getElem?_map]
    cases mags[n + 1]? with
    | none => rfl
    | some m =>
      simp only [Option.map_some]
      rw [show (ofMag m).ts = m.ts from rfl, ih]

theorem max_of (r : Pedo.Magnitude) (l : List Pedo.Magnitude) :
    maxElement exact (ofMag r) (l.map ofMag) = some (Pedo.maxElement r l) := by
  cases l with
  | nil => rfl
  | cons a l =>
    simp only [List.map_cons, maxElement, Pedo.maxElement]
    rw [show (ofMag a).value = some a.value from rfl]
    generalize a.value = x
    induction l generalizing x with
    | nil => rfl
    | cons m l ih =>
      simp only [List.map_cons, List.foldl_cons]
      rw [← ih]
      congr 1
      by_cases h : x < m.value
      · rw [if_pos h, if_pos (show exact.lt (some x) (ofMag m).value from h)]
        rfl
      · rw [if_neg h, if_neg (show ¬ exact.lt (some x) (ofMag m).value from h)]

theorem min_of (r : Pedo.Magnitude) (l : List Pedo.Magnitude) :
    minElement exact (ofMag r) (l.map ofMag) = some (Pedo.minElement r l) := by
  cases l with
  | nil => rfl
  | cons a l =>
    simp only [List.map_cons, minElement, Pedo.minElement]
    rw [show (ofMag a).value = some a.value from rfl]
    generalize a.value = x
    induction l generalizing x with
    | nil => rfl
    | cons m l ih =>
      simp only [List.map_cons, List.foldl_cons]
      rw [← ih]
      congr 1
      by_cases h : m.value < x
      · rw [if_pos h, if_pos (show exact.lt (ofMag m).value (some x) from h)]
        rfl
      · rw [if_neg h, if_neg (show ¬ exact.lt (ofMag m).value (some x) from h)]

theorem length_of (mags : List Pedo.Magnitude) (T : Int) (i : ℕ) :
    stepLength exact (mags.map ofMag) T i = (Pedo.calculateStepLength mags T i).map some := by
  unfold stepLength Pedo.calculateStepLength
  rw [List.getElem?_map]
  cases mags[i]? with
  | none => rfl
  | some r =>
    simp only [Option.map_some, left_of]
    rw [show (ofMag r).ts = r.ts from rfl]
    cases Pedo.leftBorder mags r.ts T i with
    | none => rfl
    | some left =>
      dsimp only
      rw [← List.map_drop, ← List.map_take, max_of, min_of, Pedo.length_div]
      have hle := Pedo.min_le_max r ((mags.drop left).take (i - left))
      have h1 : ¬ (Pedo.maxElement r ((mags.drop left).take (i - left)) - Pedo.minElement r ((mags.drop left).take (i - left)) < 0) := by
        linarith
      have h2 : ¬ (Real.sqrt (Pedo.maxElement r ((mags.drop left).take (i - left)) -
          Pedo.minElement r ((mags.drop left).take (i - left))) < 0) := not_lt.mpr (Real.sqrt_nonneg _)
      simp [exact, h1, h2]

theorem body_of (b : ℝ) (i : ℕ) (s : Pedo.PedoState) (steps : List Pedo.Step) :
    stepBody exact b i (ofState s, steps.map ofStep) =
      (Pedo.stepBody b i (s, steps)).map (fun r => (ofState r.1, r.2.map ofStep)) := by
  unfold stepBody Pedo.stepBody
  dsimp only
  split_ifs with h0
  · rfl
  rw [show (ofState s).mags = s.mags.map ofMag from rfl, List.getElem?_map, List.getElem?_map]
  cases s.mags[i]? with
  | none => rfl
  | some cur =>
    cases s.mags[i - 1]? with
    | none => rfl
    | some prev =>
      simp only [Option.map_some]
      have hc : ((ofState s).isStep = false ∧ exact.lt (ofMag prev).value (exact.lit MINIMAL_THRESHOLD_VALUE) ∧
          exact.lt (exact.lit MINIMAL_THRESHOLD_VALUE) (ofMag cur).value ∧
          (ofMag cur).ts - (ofState s).possibleTs > MIN_TIME_BETWEEN_STEPS_MS ∧ b > 0) ↔
        (s.isStep = false ∧ prev.value < MINIMAL_THRESHOLD_VALUE ∧ cur.value > MINIMAL_THRESHOLD_VALUE ∧
          cur.ts - s.possibleTs > MIN_TIME_BETWEEN_STEPS_MS ∧ b > 0) := Iff.rfl
      by_cases h : s.isStep = false ∧ prev.value < MINIMAL_THRESHOLD_VALUE ∧ cur.value > MINIMAL_THRESHOLD_VALUE ∧
          cur.ts - s.possibleTs > MIN_TIME_BETWEEN_STEPS_MS ∧ b > 0
      · rw [if_pos (hc.mpr h), if_pos h]
        simp only [if_true, length_of]
        cases Pedo.calculateStepLength s.mags UPDATE_TIME_INTERVAL_MS i with
        | none => rfl
        | some v =>
          simp only [Option.map_some, ofState, ofStep, ofMag, List.map_append, List.map_cons, List.map_nil]
          congr
      · rw [if_neg (fun k => h (hc.mp k)), if_neg h]
        rw [show (ofState s).isStep = s.isStep from rfl]
        by_cases hs : s.isStep = true
        · rw [if_pos hs, if_pos hs, show (ofState s).mags = s.mags.map ofMag from rfl, length_of]
          cases Pedo.calculateStepLength s.mags UPDATE_TIME_INTERVAL_MS i with
          | none => rfl
          | some v =>
            simp only [Option.map_some, ofState, ofStep, List.map_append, List.map_cons, List.map_nil]
            congr
        · rw [if_neg hs, if_neg hs]
          rfl

theorem loop_of (b : ℝ) (n : ℕ) : ∀ (i : ℕ) (s : Pedo.PedoState) (steps : List Pedo.Step),
    stepLoop exact b i n (ofState s, steps.map ofStep) =
      (Pedo.stepLoop b i n (s, steps)).map (fun r => (ofState r.1, r.2.map ofStep)) := by
  induction n with
  | zero => intro i s steps; rfl
  | succ n ih =>
    intro i s steps
    unfold stepLoop Pedo.stepLoop
    rw [body_of]
    cases Pedo.stepBody b i (s, steps) with
    | none => rfl
    | some r => exact ih (i + 1) r.1 r.2

theorem steps_of (s : Pedo.PedoState) :
    calculateSteps exact (ofState s) = (Pedo.calculateSteps s).map (fun r => (ofState r.1, r.2.map ofStep)) := by
  unfold calculateSteps Pedo.calculateSteps
  rw [show (ofState s).mags.length = s.mags.length by simp [ofState]]
  split_ifs
  · rfl
  · rw [show (ofState s).times = s.times from rfl, show (ofState s).magSize = s.magSize from rfl]
    have := loop_of (timeBetweenSteps s.times) (s.mags.length - s.magSize) s.magSize s []
    rw [show ([] : List Pedo.Step).map ofStep = [] from rfl] at this
    rw [this]
    cases Pedo.stepLoop (timeBetweenSteps s.times) s.magSize (s.mags.length - s.magSize) (s, []) with
    | none => rfl
    | some r =>
      obtain ⟨s', t⟩ := r
      simp only [Option.map_some]
      rw [show (ofState s').mags = s'.mags.map ofMag from rfl, popOld_of,
        show (fun x => (ofMag x).ts) = Pedo.Magnitude.ts from rfl]
      cases popOld Pedo.Magnitude.ts (2 * UPDATE_TIME_INTERVAL_MS) s'.mags with
      | none => rfl
      | some r => rfl

/-- **C147, numbers.** Where all samples are numbers the pedometer tells what the one of the other claims tells. -/
theorem C147_numbers (ops : List Pedo.PedoOp) :
    (run exact (ops.map ofOp)).map Prod.snd = (Pedo.pedoRun ops).map (fun r => r.2.map (List.map ofStep)) := by
  have key : run exact (ops.map ofOp) = (Pedo.pedoRun ops).map (fun r => (ofState r.1, r.2.map (List.map ofStep))) := by
    induction ops using List.reverseRecOn with
    | nil => rfl
    | append_singleton ops op ih =>
      unfold run Pedo.pedoRun at ih ⊢
      rw [List.map_append, List.foldlM_append, List.foldlM_append, ih]
      cases List.foldlM Pedo.pedoRecord (({}, []) : Pedo.PedoState × List (List Pedo.Step)) ops with
      | none => rfl
      | some r =>
        obtain ⟨s, outs⟩ := r
        simp only [Option.map_some, List.map_cons, List.map_nil, List.foldlM_cons, List.foldlM_nil]
        have hcall : call exact (ofState s) (ofOp op) =
            (Pedo.pedoStep s op).map (fun r => (ofState r.1, r.2.map ofStep)) := by
          cases op with
          | sample m =>
            simp only [ofOp, call, Pedo.pedoStep, update, Pedo.update, size_of]
            rw [show (ofMeasurement m).type = m.data.type from rfl]
            split_ifs
            · rw [push_of]
              cases Pedo.push { s with magSize := max s.mags.length 1 } m <;> rfl
            · rfl
          | batch ms =>
            simp only [ofOp, call, Pedo.pedoStep, updateBatch, Pedo.updateBatch, size_of, pushes_of]
            cases List.foldlM Pedo.push { s with magSize := max s.mags.length 1 } ms <;> rfl
          | steps => exact steps_of s
        show (record exact (ofState s, outs.map (List.map ofStep)) (ofOp op)).bind _ = _
        unfold record
        rw [hcall]
        show _ = Option.map _ ((Pedo.pedoRecord (s, outs) op).bind _)
        unfold Pedo.pedoRecord
        cases Pedo.pedoStep s op with
        | none => rfl
        | some r => simp
  rw [key]
  cases Pedo.pedoRun ops <;> rfl

/-- An accelerometer sample of magnitude `v`. -/
def sample (ts : Int) (v : Option ℝ) : Msr (Option ℝ) := ⟨.ACCELEROMETER, ⟨some 0, some 0, v⟩, ts⟩

theorem sample_number (ts : Int) (v : ℝ) (h : 0 ≤ v) : magnitude exact (sample ts (some v)).values = some v := by
  have : ¬ (v * v < 0) := not_lt.mpr (mul_self_nonneg v)
  simp [magnitude, exact, sample, this, Real.sqrt_mul_self h]

theorem sample_bad (ts : Int) : magnitude exact (sample ts none).values = none := by
  simp [magnitude, exact, sample]

/-- Four samples and a request for the steps. -/
def four (a b c d : Msr (Option ℝ)) : List (Op (Option ℝ)) := [.sample a, .sample b, .sample c, .sample d, .steps]

/-- What four samples and a request for the steps do, from the four filtered magnitudes. -/
theorem four_run (a b c d : Msr (Option ℝ)) (ha : a.type = .ACCELEROMETER) (hb : b.type = .ACCELEROMETER)
    (hc : c.type = .ACCELEROMETER) (hd : d.type = .ACCELEROMETER) (h0 : a.ts ≠ 0 ∧ b.ts ≠ 0 ∧ c.ts ≠ 0 ∧ d.ts ≠ 0)
    (hs : b.ts - a.ts ≤ 5000 ∧ c.ts - a.ts ≤ 5000 ∧ d.ts - a.ts ≤ 5000)
    (va vb vc vd : Option ℝ) (f1 : filtered exact [a] = some ⟨a.ts, va⟩) (f2 : filtered exact [a, b] = some ⟨b.ts, vb⟩)
    (f3 : filtered exact [a, b, c] = some ⟨c.ts, vc⟩) (f4 : filtered exact [a, b, c, d] = some ⟨d.ts, vd⟩) :
    run exact (four a b c d) =
      (calculateSteps exact ⟨[a, b, c, d], [⟨a.ts, va⟩, ⟨b.ts, vb⟩, ⟨c.ts, vc⟩, ⟨d.ts, vd⟩], [], 3, -1, -1, false⟩).map
        fun r => (r.1, [[], [], [], [], r.2]) := by
  have p1 : push exact ⟨[], [], [], 1, -1, -1, false⟩ a = some ⟨[a], [⟨a.ts, va⟩], [], 1, -1, -1, false⟩ := by
    simp [push, f1, h0.1, popOld, AVERAGING_TIME_INTERVAL_MS]
  have p2 : push exact ⟨[a], [⟨a.ts, va⟩], [], 1, -1, -1, false⟩ b =
      some ⟨[a, b], [⟨a.ts, va⟩, ⟨b.ts, vb⟩], [], 1, -1, -1, false⟩ := by
    simp [push, f2, h0.2.1, popOld, AVERAGING_TIME_INTERVAL_MS, not_lt.mpr hs.1]
  have p3 : push exact ⟨[a, b], [⟨a.ts, va⟩, ⟨b.ts, vb⟩], [], 2, -1, -1, false⟩ c =
      some ⟨[a, b, c], [⟨a.ts, va⟩, ⟨b.ts, vb⟩, ⟨c.ts, vc⟩], [], 2, -1, -1, false⟩ := by
    simp [push, f3, h0.2.2.1, popOld, AVERAGING_TIME_INTERVAL_MS, not_lt.mpr hs.2.1]
  have p4 : push exact ⟨[a, b, c], [⟨a.ts, va⟩, ⟨b.ts, vb⟩, ⟨c.ts, vc⟩], [], 3, -1, -1, false⟩ d =
      some ⟨[a, b, c, d], [⟨a.ts, va⟩, ⟨b.ts, vb⟩, ⟨c.ts, vc⟩, ⟨d.ts, vd⟩], [], 3, -1, -1, false⟩ := by
    simp [push, f4, h0.2.2.2, popOld, AVERAGING_TIME_INTERVAL_MS, not_lt.mpr hs.2.2]
  have u1 : update exact {} a = some ⟨[a], [⟨a.ts, va⟩], [], 1, -1, -1, false⟩ := by
    simp only [update, ha, if_true]
    exact p1
  have u2 : update exact ⟨[a], [⟨a.ts, va⟩], [], 1, -1, -1, false⟩ b =
      some ⟨[a, b], [⟨a.ts, va⟩, ⟨b.ts, vb⟩], [], 1, -1, -1, false⟩ := by
    simp only [update, hb, if_true]
    exact p2
  have u3 : update exact ⟨[a, b], [⟨a.ts, va⟩, ⟨b.ts, vb⟩], [], 1, -1, -1, false⟩ c =
      some ⟨[a, b, c], [⟨a.ts, va⟩, ⟨b.ts, vb⟩, ⟨c.ts, vc⟩], [], 2, -1, -1, false⟩ := by
    simp only [update, hc, if_true]
    exact p3
  have u4 : update exact ⟨[a, b, c], [⟨a.ts, va⟩, ⟨b.ts, vb⟩, ⟨c.ts, vc⟩], [], 2, -1, -1, false⟩ d =
      some ⟨[a, b, c, d], [⟨a.ts, va⟩, ⟨b.ts, vb⟩, ⟨c.ts, vc⟩, ⟨d.ts, vd⟩], [], 3, -1, -1, false⟩ := by
    simp only [update, hd, if_true]
    exact p4
  simp only [run, four, List.foldlM_cons, List.foldlM_nil, record, call, u1, u2, u3, u4, Option.map_some, Option.bind_eq_bind,
    Option.bind_some]
  cases calculateSteps exact ⟨[a, b, c, d], [⟨a.ts, va⟩, ⟨b.ts, vb⟩, ⟨c.ts, vc⟩, ⟨d.ts, vd⟩], [], 3, -1, -1, false⟩ <;> rfl

theorem four_step (l : List (Msr (Option ℝ))) (a b c d : Magnitude (Option ℝ)) (v : Option ℝ)
    (h1 : exact.lt c.value (exact.lit MINIMAL_THRESHOLD_VALUE)) (h2 : exact.lt (exact.lit MINIMAL_THRESHOLD_VALUE) d.value)
    (h3 : 300 < d.ts) (hv : stepLength exact [a, b, c, d] UPDATE_TIME_INTERVAL_MS 3 = some v) :
    ∃ s, calculateSteps exact ⟨l, [a, b, c, d], [], 3, -1, -1, false⟩ = some (s, [⟨d.ts, v⟩]) := by
  have hb := Pedo.between_pos []
  have hbody : ∃ s : State (Option ℝ), s.mags = [a, b, c, d] ∧
      stepBody exact (timeBetweenSteps []) 3 (⟨l, [a, b, c, d], [], 3, -1, -1, false⟩, []) = some (s, [⟨d.ts, v⟩]) := by
    have hc : (false = false ∧ exact.lt c.value (exact.lit MINIMAL_THRESHOLD_VALUE) ∧
        exact.lt (exact.lit MINIMAL_THRESHOLD_VALUE) d.value ∧ d.ts - (-1) > MIN_TIME_BETWEEN_STEPS_MS ∧ timeBetweenSteps [] > 0) :=
      ⟨rfl, h1, h2, by unfold MIN_TIME_BETWEEN_STEPS_MS; omega, hb⟩
    unfold stepBody
    dsimp only
    rw [if_neg (by decide)]
    rw [show ([a, b, c, d] : List (Magnitude (Option ℝ)))[3]? = some d from rfl,
      show ([a, b, c, d] : List (Magnitude (Option ℝ)))[3 - 1]? = some c from rfl]
    dsimp only
    rw [if_pos hc]
    simp only [if_true, hv, List.nil_append]
    exact ⟨_, rfl, rfl⟩
  obtain ⟨s, hm, hs⟩ := hbody
  unfold calculateSteps
  rw [if_neg (by simp)]
  have hl : stepLoop exact (timeBetweenSteps []) 3 1 (⟨l, [a, b, c, d], [], 3, -1, -1, false⟩, []) = some (s, [⟨d.ts, v⟩]) := by
    unfold stepLoop
    rw [hs]
    rfl
  rw [show ([a, b, c, d] : List (Magnitude (Option ℝ))).length - 3 = 1 from rfl]
  simp only [hl, hm]
  obtain ⟨r, p1, -, -⟩ := Pedo.popOld_some Magnitude.ts (2 * UPDATE_TIME_INTERVAL_MS) (by decide) [a, b, c] d
  rw [show ([a, b, c] ++ [d] : List (Magnitude (Option ℝ))) = [a, b, c, d] from rfl] at p1
  simp only [p1]
  exact ⟨_, rfl⟩

theorem four_none (l : List (Msr (Option ℝ))) (a b c d : Magnitude (Option ℝ)) (h : d.value = none) :
    ∃ s, calculateSteps exact ⟨l, [a, b, c, d], [], 3, -1, -1, false⟩ = some (s, []) := by
  have hl : stepLoop exact (timeBetweenSteps []) 3 1 (⟨l, [a, b, c, d], [], 3, -1, -1, false⟩, []) =
      some (⟨l, [a, b, c, d], [], 3, -1, -1, false⟩, []) := by
    unfold stepLoop stepBody
    dsimp only
    rw [if_neg (by decide)]
    rw [show ([a, b, c, d] : List (Magnitude (Option ℝ)))[3]? = some d from rfl,
      show ([a, b, c, d] : List (Magnitude (Option ℝ)))[3 - 1]? = some c from rfl]
    dsimp only
    have hc : ¬ (false = false ∧ exact.lt c.value (exact.lit MINIMAL_THRESHOLD_VALUE) ∧
        exact.lt (exact.lit MINIMAL_THRESHOLD_VALUE) d.value ∧ d.ts - (-1) > MIN_TIME_BETWEEN_STEPS_MS ∧ timeBetweenSteps [] > 0) := by
      rintro ⟨-, -, hd, -⟩
      rw [h] at hd
      exact hd
    rw [if_neg hc]
    rfl
  unfold calculateSteps
  rw [if_neg (by simp)]
  rw [show ([a, b, c, d] : List (Magnitude (Option ℝ))).length - 3 = 1 from rfl]
  simp only [hl]
  obtain ⟨r, p1, -, -⟩ := Pedo.popOld_some Magnitude.ts (2 * UPDATE_TIME_INTERVAL_MS) (by decide) [a, b, c] d
  rw [show ([a, b, c] ++ [d] : List (Magnitude (Option ℝ))) = [a, b, c, d] from rfl] at p1
  simp only [p1]
  exact ⟨_, rfl⟩

theorem sample_ts (ts : Int) (v : Option ℝ) : (sample ts v).ts = ts := rfl

theorem ten (ts : Int) : magnitude exact (sample ts (some 10)).values = some 10 := sample_number ts 10 (by norm_num)

theorem thirty (ts : Int) : magnitude exact (sample ts (some 30)).values = some 30 := sample_number ts 30 (by norm_num)

/-- The filtered magnitude after a list of samples at least 200 ms apart, of which those in `aver` are less than 2.5 s old. -/
theorem filtered_eq (l : List (Msr (Option ℝ))) (m : Msr (Option ℝ)) (aver : List (Msr (Option ℝ))) (s v : Option ℝ)
    (h1 : scan m.ts 2500 (l ++ [m]) = some aver) (h2 : scan m.ts 200 (l ++ [m]) = some [m]) (hne : aver ≠ [])
    (hs : sumMagn exact aver = s) (hm : magnitude exact m.values = v) :
    filtered exact (l ++ [m]) = some ⟨m.ts, exact.sub (exact.div (exact.add (some 0) v) (some 1))
      (exact.div (exact.add s (exact.div (exact.add (some 0) v) (some 1))) (some aver.length))⟩ := by
  unfold filtered
  simp only [List.getLast?_concat, AVERAGING_TIME_INTERVAL_MS, FILTER_TIME_INTERVAL_MS, h1, h2]
  rw [if_neg (by simp [hne])]
  rw [hs]
  simp only [sumMagn, List.foldl_cons, List.foldl_nil, hm, List.length_singleton, Nat.cast_one]
  rfl

theorem thr_lt (x : ℝ) (h : x ≤ 0) : exact.lt (some x) (exact.lit MINIMAL_THRESHOLD_VALUE) := by
  show x < 0.05 * 9.80665
  linarith

theorem thr_gt (x : ℝ) (h : 1 ≤ x) : exact.lt (exact.lit MINIMAL_THRESHOLD_VALUE) (some x) := by
  show (0.05 : ℝ) * 9.80665 < x
  linarith

/-- **C147, recovery and the length.** Two and a half seconds after the bad sample steps are told again; the length of the first one can
still be no number. -/
theorem C147_length : ∃ s, run exact (four (sample 1 none) (sample 1990 (some 10)) (sample 2600 (some 10)) (sample 2850 (some 30))) =
    some (s, [[], [], [], [], [⟨2850, none⟩]]) := by
  have f1 : filtered exact [sample 1 none] = some ⟨1, none⟩ := by
    rw [show [sample 1 none] = [] ++ [sample 1 none] from rfl,
      filtered_eq [] _ [sample 1 none] none none (by simp [scan]) (by simp [scan]) (by simp) (by simp only [sumMagn, List.foldl_cons, List.foldl_nil, ten, sample_bad]; simp [exact])
        (sample_bad 1)]
    simp [exact, sample_ts]
  have f2 : filtered exact [sample 1 none, sample 1990 (some 10)] = some ⟨1990, none⟩ := by
    rw [show [sample 1 none, sample 1990 (some 10)] = [sample 1 none] ++ [sample 1990 (some 10)] from rfl,
      filtered_eq _ _ [sample 1 none, sample 1990 (some 10)] none (some 10) (by simp [scan, sample_ts]) (by simp [scan, sample_ts])
        (by simp) (by simp only [sumMagn, List.foldl_cons, List.foldl_nil, ten, sample_bad]; simp [exact]) (ten _)]
    simp [exact, sample_ts]
  have f3 : filtered exact [sample 1 none, sample 1990 (some 10), sample 2600 (some 10)] = some ⟨2600, some (-5)⟩ := by
    rw [show [sample 1 none, sample 1990 (some 10), sample 2600 (some 10)] =
        [sample 1 none, sample 1990 (some 10)] ++ [sample 2600 (some 10)] from rfl,
      filtered_eq _ _ [sample 1990 (some 10), sample 2600 (some 10)] (some 20) (some 10) (by simp [scan, sample_ts])
        (by simp [scan, sample_ts]) (by simp) (by simp only [sumMagn, List.foldl_cons, List.foldl_nil, ten]; simp [exact]; norm_num) (ten _)]
    simp [exact, sample_ts]
    norm_num
  have f4 : filtered exact [sample 1 none, sample 1990 (some 10), sample 2600 (some 10), sample 2850 (some 30)] =
      some ⟨2850, some (10 / 3)⟩ := by
    rw [show [sample 1 none, sample 1990 (some 10), sample 2600 (some 10), sample 2850 (some 30)] =
        [sample 1 none, sample 1990 (some 10), sample 2600 (some 10)] ++ [sample 2850 (some 30)] from rfl,
      filtered_eq _ _ [sample 1990 (some 10), sample 2600 (some 10), sample 2850 (some 30)] (some 50) (some 30)
        (by simp [scan, sample_ts]) (by simp [scan, sample_ts]) (by simp) (by simp only [sumMagn, List.foldl_cons, List.foldl_nil, ten, thirty]; simp [exact]; norm_num) (thirty _)]
    simp [exact, sample_ts]
    norm_num
  rw [four_run _ _ _ _ rfl rfl rfl rfl (by simp [sample_ts]) (by simp [sample_ts]) none none (some (-5)) (some (10 / 3)) f1 f2 f3 f4]
  obtain ⟨s, hs⟩ := four_step [sample 1 none, sample 1990 (some 10), sample 2600 (some 10), sample 2850 (some 30)]
    ⟨1, none⟩ ⟨1990, none⟩ ⟨2600, some (-5)⟩ ⟨2850, some (10 / 3)⟩ none (thr_lt _ (by norm_num)) (thr_gt _ (by norm_num)) (by norm_num)
    (by simp [stepLength, leftBorder, UPDATE_TIME_INTERVAL_MS, maxElement, minElement, exact])
  refine ⟨s, ?_⟩
  simp only [sample_ts]
  rw [hs]
  rfl

/-- A step the bad sample hides: told with a number in its place, not told with the bad sample. -/
theorem C147_missed : (∃ s l, run exact (four (sample 1 (some 10)) (sample 600 (some 10)) (sample 1200 (some 10))
      (sample 1800 (some 30))) = some (s, [[], [], [], [], [⟨1800, some l⟩]])) ∧
    ∃ s, run exact (four (sample 1 none) (sample 600 (some 10)) (sample 1200 (some 10)) (sample 1800 (some 30))) =
      some (s, [[], [], [], [], []]) := by
  constructor
  · have f1 : filtered exact [sample 1 (some 10)] = some ⟨1, some (-10)⟩ := by
      rw [show [sample 1 (some 10)] = [] ++ [sample 1 (some 10)] from rfl,
        filtered_eq [] _ [sample 1 (some 10)] (some 10) (some 10) (by simp [scan]) (by simp [scan]) (by simp)
          (by simp only [sumMagn, List.foldl_cons, List.foldl_nil, ten, sample_bad]; simp [exact]) (ten 1)]
      simp [exact, sample_ts]
    have f2 : filtered exact [sample 1 (some 10), sample 600 (some 10)] = some ⟨600, some (-5)⟩ := by
      rw [show [sample 1 (some 10), sample 600 (some 10)] = [sample 1 (some 10)] ++ [sample 600 (some 10)] from rfl,
        filtered_eq _ _ [sample 1 (some 10), sample 600 (some 10)] (some 20) (some 10) (by simp [scan, sample_ts])
          (by simp [scan, sample_ts]) (by simp) (by simp only [sumMagn, List.foldl_cons, List.foldl_nil, ten]; simp [exact]; norm_num) (ten _)]
      simp [exact, sample_ts]
      norm_num
    have f3 : filtered exact [sample 1 (some 10), sample 600 (some 10), sample 1200 (some 10)] = some ⟨1200, some (-10 / 3)⟩ := by
      rw [show [sample 1 (some 10), sample 600 (some 10), sample 1200 (some 10)] =
          [sample 1 (some 10), sample 600 (some 10)] ++ [sample 1200 (some 10)] from rfl,
        filtered_eq _ _ [sample 1 (some 10), sample 600 (some 10), sample 1200 (some 10)] (some 30) (some 10) (by simp [scan, sample_ts])
          (by simp [scan, sample_ts]) (by simp) (by simp only [sumMagn, List.foldl_cons, List.foldl_nil, ten]; simp [exact]; norm_num) (ten _)]
      simp [exact, sample_ts]
      norm_num
    have f4 : filtered exact [sample 1 (some 10), sample 600 (some 10), sample 1200 (some 10), sample 1800 (some 30)] =
        some ⟨1800, some (15 / 2)⟩ := by
      rw [show [sample 1 (some 10), sample 600 (some 10), sample 1200 (some 10), sample 1800 (some 30)] =
          [sample 1 (some 10), sample 600 (some 10), sample 1200 (some 10)] ++ [sample 1800 (some 30)] from rfl,
        filtered_eq _ _ [sample 1 (some 10), sample 600 (some 10), sample 1200 (some 10), sample 1800 (some 30)] (some 60) (some 30)
          (by simp [scan, sample_ts]) (by simp [scan, sample_ts]) (by simp) (by simp only [sumMagn, List.foldl_cons, List.foldl_nil, ten, thirty]; simp [exact]; norm_num) (thirty _)]
      simp [exact, sample_ts]
      norm_num
    rw [four_run _ _ _ _ rfl rfl rfl rfl (by simp [sample_ts]) (by simp [sample_ts]) _ _ _ _ f1 f2 f3 f4]
    obtain ⟨s, hs⟩ := four_step [sample 1 (some 10), sample 600 (some 10), sample 1200 (some 10), sample 1800 (some 30)]
      ⟨1, some (-10)⟩ ⟨600, some (-5)⟩ ⟨1200, some (-10 / 3)⟩ ⟨1800, some (15 / 2)⟩
      (some (STEP_LENGTH_CONST * Real.sqrt (Real.sqrt (-10 / 3 - -5))))
      (thr_lt _ (by norm_num)) (thr_gt _ (by norm_num)) (by norm_num)
      (by
        have h1 : maxElement exact ⟨1800, some (15 / 2)⟩ [⟨600, some (-5)⟩, ⟨1200, some (-10 / 3)⟩] = some (-10 / 3) := by
          simp only [maxElement, List.foldl_cons, List.foldl_nil]
          exact if_pos (show (-5 : ℝ) < -10 / 3 by norm_num)
        have h2 : minElement exact ⟨1800, some (15 / 2)⟩ [⟨600, some (-5)⟩, ⟨1200, some (-10 / 3)⟩] = some (-5) := by
          simp only [minElement, List.foldl_cons, List.foldl_nil]
          exact if_neg (show ¬ ((-10 / 3 : ℝ) < -5) by norm_num)
        have h3 : ¬ ((-10 / 3 - -5 : ℝ) < 0) := by norm_num
        have h4 : ¬ (Real.sqrt (-10 / 3 - -5) < 0) := not_lt.mpr (Real.sqrt_nonneg _)
        have h5 : leftBorder [⟨1, some (-10)⟩, ⟨600, some (-5)⟩, ⟨1200, some (-10 / 3)⟩, (⟨1800, some (15 / 2)⟩ : Magnitude (Option ℝ))]
            1800 UPDATE_TIME_INTERVAL_MS 3 = some 1 := by
          simp [leftBorder, UPDATE_TIME_INTERVAL_MS]
        simp only [stepLength, List.getElem?_cons_succ, List.getElem?_cons_zero, h5]
        simp only [List.drop_succ_cons, List.drop_zero, Nat.reduceSub, List.take_succ_cons, List.take_zero, h1, h2]
        show some (exact.mul (some STEP_LENGTH_CONST) (exact.sqrt (exact.sqrt (some (-10 / 3 - -5))))) = _
        rw [show exact.sqrt (some (-10 / 3 - -5)) = some (Real.sqrt (-10 / 3 - -5)) from if_neg h3,
          show exact.sqrt (some (Real.sqrt (-10 / 3 - -5))) = some (Real.sqrt (Real.sqrt (-10 / 3 - -5))) from if_neg h4]
        rfl)
    refine ⟨s, STEP_LENGTH_CONST * Real.sqrt (Real.sqrt (-10 / 3 - -5)), ?_⟩
    simp only [sample_ts]
    rw [hs]
    rfl
  · have f1 : filtered exact [sample 1 none] = some ⟨1, none⟩ := by
      rw [show [sample 1 none] = [] ++ [sample 1 none] from rfl,
        filtered_eq [] _ [sample 1 none] none none (by simp [scan]) (by simp [scan]) (by simp) (by simp only [sumMagn, List.foldl_cons, List.foldl_nil, ten, sample_bad]; simp [exact])
          (sample_bad 1)]
      simp [exact, sample_ts]
    have f2 : filtered exact [sample 1 none, sample 600 (some 10)] = some ⟨600, none⟩ := by
      rw [show [sample 1 none, sample 600 (some 10)] = [sample 1 none] ++ [sample 600 (some 10)] from rfl,
        filtered_eq _ _ [sample 1 none, sample 600 (some 10)] none (some 10) (by simp [scan, sample_ts]) (by simp [scan, sample_ts])
          (by simp) (by simp only [sumMagn, List.foldl_cons, List.foldl_nil, ten, sample_bad]; simp [exact]) (ten _)]
      simp [exact, sample_ts]
    have f3 : filtered exact [sample 1 none, sample 600 (some 10), sample 1200 (some 10)] = some ⟨1200, none⟩ := by
      rw [show [sample 1 none, sample 600 (some 10), sample 1200 (some 10)] =
          [sample 1 none, sample 600 (some 10)] ++ [sample 1200 (some 10)] from rfl,
        filtered_eq _ _ [sample 1 none, sample 600 (some 10), sample 1200 (some 10)] none (some 10) (by simp [scan, sample_ts])
          (by simp [scan, sample_ts]) (by simp) (by simp only [sumMagn, List.foldl_cons, List.foldl_nil, ten, sample_bad]; simp [exact]) (ten _)]
      simp [exact, sample_ts]
    have f4 : filtered exact [sample 1 none, sample 600 (some 10), sample 1200 (some 10), sample 1800 (some 30)] =
        some ⟨1800, none⟩ := by
      rw [show [sample 1 none, sample 600 (some 10), sample 1200 (some 10), sample 1800 (some 30)] =
          [sample 1 none, sample 600 (some 10), sample 1200 (some 10)] ++ [sample 1800 (some 30)] from rfl,
        filtered_eq _ _ [sample 1 none, sample 600 (some 10), sample 1200 (some 10), sample 1800 (some 30)] none (some 30)
          (by simp [scan, sample_ts]) (by simp [scan, sample_ts]) (by simp) (by simp only [sumMagn, List.foldl_cons, List.foldl_nil, ten, sample_bad]; simp [exact]) (thirty _)]
      simp [exact, sample_ts]
    rw [four_run _ _ _ _ rfl rfl rfl rfl (by simp [sample_ts]) (by simp [sample_ts]) _ _ _ _ f1 f2 f3 f4]
    obtain ⟨s, hs⟩ := four_none [sample 1 none, sample 600 (some 10), sample 1200 (some 10), sample 1800 (some 30)]
      ⟨1, none⟩ ⟨600, none⟩ ⟨1200, none⟩ ⟨1800, none⟩ rfl
    refine ⟨s, ?_⟩
    simp only [sample_ts]
    rw [hs]
    rfl

/-- The hypotheses of `C147_blind` are met by the second walk. -/
example : Propagates exact ∧
    Ordered (samples (four (sample 1 none) (sample 600 (some 10)) (sample 1200 (some 10)) (sample 1800 (some 30)))) ∧
    sample 1 none ∈ samples (four (sample 1 none) (sample 600 (some 10)) (sample 1200 (some 10)) (sample 1800 (some 30))) ∧
    Bad exact (sample 1 none).values := by
  refine ⟨exact_propagates, ?_, ?_, Or.inr (Or.inr rfl)⟩
  · simp [samples, four, opSamples, sample, Ordered]
  · simp [samples, four, opSamples, sample]

end Verif.Nan.Walk
