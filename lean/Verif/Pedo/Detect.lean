import Verif.Pedo.Props

/-!
# When the pedometer reports a step, and of which length: C77
-/

namespace Verif.Pedo

open Verif

theorem foldl_add (l : List SensorMeasurement) (a : ℝ) :
    l.foldl (fun sum m => sum + magnitude m.data.values) a = a + (l.map (fun m => magnitude m.data.values)).sum := by
  induction l generalizing a with
  | nil => simp
  | cons m l ih => rw [List.foldl_cons, ih, List.map_cons, List.sum_cons, add_assoc]

theorem sumMagn_eq (l : List SensorMeasurement) : sumMagn l = (l.map (fun m => magnitude m.data.values)).sum := by
  unfold sumMagn
  rw [foldl_add, zero_add]

theorem scan_within (last T : Int) (hT : 0 < T) (l : List SensorMeasurement) (ho : Ordered l)
    (h : ∃ m ∈ l, m.ts = last) : scan last T l = some (within last T l) := by
  induction l with
  | nil => obtain ⟨m, hm, -⟩ := h; simp at hm
  | cons a l ih =>
    unfold Ordered at ho ih
    rw [List.pairwise_cons] at ho
    unfold scan
    by_cases hc : last - a.ts ≥ T
    · rw [if_pos hc]
      obtain ⟨m, hm, he⟩ := h
      have hm' : m ∈ l := by
        rcases List.mem_cons.mp hm with rfl | hm
        · omega
        · exact hm
      rw [ih ho.2 ⟨m, hm', he⟩]
      unfold within
      rw [List.filter_cons_of_neg (by simpa using hc)]
    · rw [if_neg hc]
      unfold within
      rw [List.filter_eq_self.mpr]
      intro x hx
      rcases List.mem_cons.mp hx with rfl | hx
      · simpa using hc
      · have := ho.1 x hx
        simp only [decide_eq_true_eq]
        omega

/-- The buffered samples give the same filtered magnitude as all samples so far. -/
theorem filtered_eq (d r : List SensorMeasurement) (m : SensorMeasurement) (ho : Ordered (d ++ r ++ [m]))
    (hd : ∀ y ∈ d, m.ts - y.ts ≥ 2500) :
    calculateFilteredAccMagnitudes (r ++ [m]) = some ⟨m.ts, filteredValue (d ++ r) m⟩ := by
  have hw : ∀ T ≤ 2500, within m.ts T (d ++ r ++ [m]) = within m.ts T (r ++ [m]) := by
    intro T hT
    unfold within
    rw [List.append_assoc, List.filter_append, List.filter_eq_nil_iff.mpr, List.nil_append]
    intro y hy
    have := hd y hy
    simp only [decide_eq_true_eq]
    omega
  have ho' : Ordered (r ++ [m]) := by
    unfold Ordered at ho ⊢
    rw [List.append_assoc, List.pairwise_append] at ho
    exact ho.2.1
  unfold calculateFilteredAccMagnitudes
  have hl : (r ++ [m]).getLast? = some m := by simp
  simp only [hl]
  rw [scan_within m.ts AVERAGING_TIME_INTERVAL_MS (by decide) _ ho' ⟨m, by simp, rfl⟩,
    scan_within m.ts FILTER_TIME_INTERVAL_MS (by decide) _ ho' ⟨m, by simp, rfl⟩]
  have hne : ∀ T, 0 < T → within m.ts T (r ++ [m]) ≠ [] := by
    intro T hT h
    have : m ∈ within m.ts T (r ++ [m]) := by
      unfold within
      simp [hT]
    rw [h] at this
    simp at this
  dsimp only
  rw [if_neg (by
    simp only [List.length_eq_zero_iff]
    rintro (h | h)
    · exact hne _ (by decide) h
    · exact hne _ (by decide) h)]
  congr 2
  rw [divide_pos (by exact_mod_cast List.length_pos_of_ne_nil (hne _ (by decide))),
    divide_pos (by exact_mod_cast List.length_pos_of_ne_nil (hne _ (by decide)))]
  unfold filteredValue meanMagn
  dsimp only
  rw [hw 200 (by norm_num), hw 2500 (le_refl _)]
  unfold AVERAGING_TIME_INTERVAL_MS FILTER_TIME_INTERVAL_MS
  rw [sumMagn_eq, sumMagn_eq, add_div]

/-- The magnitudes of all samples, each computed from the samples before it. -/
noncomputable def magsFrom (pre : List SensorMeasurement) : List SensorMeasurement → List Magnitude
  | [] => []
  | m :: l => ⟨m.ts, filteredValue pre m⟩ :: magsFrom (pre ++ [m]) l

theorem magsFrom_append (pre l : List SensorMeasurement) (l2 : List SensorMeasurement) :
    magsFrom pre (l ++ l2) = magsFrom pre l ++ magsFrom (pre ++ l) l2 := by
  induction l generalizing pre with
  | nil => simp [magsFrom]
  | cons a l ih =>
    rw [List.cons_append, magsFrom, magsFrom, ih]
    simp

theorem magsFrom_ts (pre l : List SensorMeasurement) : (magsFrom pre l).map Magnitude.ts = l.map Stamped.ts := by
  induction l generalizing pre with
  | nil => rfl
  | cons a l ih => unfold magsFrom; rw [List.map_cons, ih, List.map_cons]

theorem magsFrom_length (pre l : List SensorMeasurement) : (magsFrom pre l).length = l.length := by
  have := congrArg List.length (magsFrom_ts pre l)
  simpa using this

/-- The buffers hold the end of the history. -/
structure Hist (A : List SensorMeasurement) (s : PedoState) : Prop where
  accel : ∃ d, A = d ++ s.accel ∧ ∀ y ∈ d, ∀ z, A.getLast? = some z → z.ts - y.ts > 5000
  mags : ∃ d, magsFrom [] A = d ++ s.mags ∧ ∀ y ∈ d, ∀ z, A.getLast? = some z → z.ts - y.ts > 1400

theorem getLast_mags (A : List SensorMeasurement) (z : SensorMeasurement) (h : A.getLast? = some z) :
    ∃ g, (magsFrom [] A).getLast? = some g ∧ g.ts = z.ts := by
  obtain ⟨l, rfl⟩ := List.getLast?_eq_some_iff.mp h
  rw [magsFrom_append]
  exact ⟨⟨z.ts, filteredValue ([] ++ l) z⟩, by simp [magsFrom], rfl⟩

theorem hist_push {A : List SensorMeasurement} {s : PedoState} (h : Hist A s) (m : SensorMeasurement)
    (ho : Ordered (A ++ [m])) (hz : m.ts ≠ 0) :
    ∃ s', push s m = some s' ∧ Hist (A ++ [m]) s' ∧ s'.mags = s.mags ++ [⟨m.ts, filteredValue A m⟩] ∧
      s'.magSize = s.magSize ∧ s'.times = s.times := by
  obtain ⟨v, r, h1, ⟨d, h2, h3⟩, -, h5⟩ := push_spec s m
  obtain ⟨d0, e0, f0⟩ := h.accel
  have hord : ∀ y ∈ A, y.ts ≤ m.ts := by
    unfold Ordered at ho
    rw [List.pairwise_append] at ho
    exact fun y hy => ho.2.2 y hy m (by simp)
  have hold : ∀ y ∈ d0, m.ts - y.ts > 5000 := by
    intro y hy
    have hne : A ≠ [] := by rw [e0]; intro h; simp [(List.append_eq_nil_iff.mp h).1] at hy
    have := f0 y hy _ (List.getLast?_eq_some_getLast hne)
    have := hord _ (List.getLast_mem hne)
    omega
  have hv : v = filteredValue A m := by
    rw [filtered_eq d0 s.accel m (by rw [← e0]; exact ho) (fun y hy => by have := hold y hy; omega)] at h5
    rw [← e0] at h5
    have := congrArg (Option.map Magnitude.value) h5
    simpa using this.symm
  subst hv
  refine ⟨_, h1, ⟨⟨d0 ++ d, ?_, ?_⟩, ?_⟩, by rw [if_pos hz], rfl, rfl⟩
  · dsimp only
    rw [e0, h2]
    simp
  · intro y hy z hz'
    simp only [List.getLast?_append, List.getLast?_singleton, Option.some_or, Option.some.injEq] at hz'
    rw [← hz']
    rcases List.mem_append.mp hy with hy | hy
    · exact hold y hy
    · exact h3 y hy
  · obtain ⟨d1, e1, f1⟩ := h.mags
    refine ⟨d1, ?_, ?_⟩
    · rw [if_pos hz, magsFrom_append, e1]
      simp [magsFrom]
    · intro y hy z hz'
      simp only [List.getLast?_append, List.getLast?_singleton, Option.some_or, Option.some.injEq] at hz'
      rw [← hz']
      have hne : A ≠ [] := by
        intro h
        rw [h] at e1
        simp only [magsFrom] at e1
        rw [(List.append_eq_nil_iff.mp e1.symm).1] at hy
        simp at hy
      have := f1 y hy _ (List.getLast?_eq_some_getLast hne)
      have := hord _ (List.getLast_mem hne)
      omega

theorem hist_size {A : List SensorMeasurement} {s : PedoState} (h : Hist A s) (k : ℕ) :
    Hist A { s with magSize := k } := ⟨h.accel, h.mags⟩

theorem hist_steps {A : List SensorMeasurement} {s s' : PedoState} (h : Hist A s)
    (h1 : s'.accel = s.accel)
    (h2 : ∃ d, s.mags = d ++ s'.mags ∧ ∀ y ∈ d, ∀ z, s.mags.getLast? = some z → z.ts - y.ts > 1400) :
    Hist A s' := by
  obtain ⟨d, e, f⟩ := h2
  refine ⟨by rw [h1]; exact h.accel, ?_⟩
  obtain ⟨d1, e1, f1⟩ := h.mags
  refine ⟨d1 ++ d, by rw [e1, e, List.append_assoc], ?_⟩
  intro y hy z hz
  rcases List.mem_append.mp hy with hy | hy
  · exact f1 y hy z hz
  · obtain ⟨g, hg, hgz⟩ := getLast_mags A z hz
    have hne : s.mags ≠ [] := by rw [e]; intro h; simp [(List.append_eq_nil_iff.mp h).1] at hy
    rw [e1, List.getLast?_append, List.getLast?_eq_some_getLast hne, Option.some_or] at hg
    have := f y hy g (by rw [List.getLast?_eq_some_getLast hne]; exact hg)
    omega

theorem leftBorder_spec (mags : List Magnitude) (rts T : Int) (n k : ℕ) (hn : n < mags.length)
    (h : leftBorder mags rts T n = some k) :
    k ≤ n ∧ (∀ j (hj : j < mags.length), k < j → j ≤ n → rts - mags[j].ts ≤ T) ∧
      (k = 0 ∨ ∃ hk : k < mags.length, rts - mags[k].ts > T) := by
  induction n with
  | zero =>
    cases h
    exact ⟨le_refl _, fun j _ h1 h2 => by omega, Or.inl rfl⟩
  | succ n ih =>
    unfold leftBorder at h
    rw [List.getElem?_eq_getElem hn] at h
    dsimp only at h
    split_ifs at h with hc
    · obtain ⟨h1, h2, h3⟩ := ih (by omega) h
      refine ⟨by omega, ?_, h3⟩
      intro j hj hkj hjn
      by_cases hj' : j = n + 1
      · subst hj'; exact hc
      · exact h2 j hj hkj (by omega)
    · cases h
      exact ⟨le_refl _, fun j _ h1 h2 => by omega, Or.inr ⟨hn, not_le.mp hc⟩⟩

theorem maxFold_spec (l : List Magnitude) (a : ℝ) :
    (l.foldl (fun best m => if best < m.value then m.value else best) a = a ∨
      ∃ m ∈ l, m.value = l.foldl (fun best m => if best < m.value then m.value else best) a) ∧
    ∀ m ∈ l, m.value ≤ l.foldl (fun best m => if best < m.value then m.value else best) a := by
  induction l generalizing a with
  | nil => simp
  | cons x l ih =>
    rw [List.foldl_cons]
    obtain ⟨h1, h2⟩ := ih (if a < x.value then x.value else a)
    constructor
    · rcases h1 with h1 | ⟨m, hm, h1⟩
      · rw [h1]
        split_ifs
        · exact Or.inr ⟨x, by simp, rfl⟩
        · exact Or.inl rfl
      · exact Or.inr ⟨m, by simp [hm], h1⟩
    · intro m hm
      rcases List.mem_cons.mp hm with rfl | hm
      · refine le_trans ?_ (maxFold_ge l _)
        split_ifs with h
        · exact le_refl _
        · exact not_lt.mp h
      · exact h2 m hm

theorem minFold_spec (l : List Magnitude) (a : ℝ) :
    (l.foldl (fun best m => if m.value < best then m.value else best) a = a ∨
      ∃ m ∈ l, m.value = l.foldl (fun best m => if m.value < best then m.value else best) a) ∧
    ∀ m ∈ l, l.foldl (fun best m => if m.value < best then m.value else best) a ≤ m.value := by
  induction l generalizing a with
  | nil => simp
  | cons x l ih =>
    rw [List.foldl_cons]
    obtain ⟨h1, h2⟩ := ih (if x.value < a then x.value else a)
    constructor
    · rcases h1 with h1 | ⟨m, hm, h1⟩
      · rw [h1]
        split_ifs
        · exact Or.inr ⟨x, by simp, rfl⟩
        · exact Or.inl rfl
      · exact Or.inr ⟨m, by simp [hm], h1⟩
    · intro m hm
      rcases List.mem_cons.mp hm with rfl | hm
      · refine le_trans (minFold_le l _) ?_
        split_ifs with h
        · exact le_refl _
        · exact not_lt.mp h
      · exact h2 m hm

theorem maxElement_spec (r : Magnitude) (l : List Magnitude) (h : l ≠ []) :
    (∃ m ∈ l, m.value = maxElement r l) ∧ ∀ m ∈ l, m.value ≤ maxElement r l := by
  cases l with
  | nil => exact absurd rfl h
  | cons a l =>
    unfold maxElement
    obtain ⟨h1, h2⟩ := maxFold_spec l a.value
    constructor
    · rcases h1 with h1 | ⟨m, hm, h1⟩
      · exact ⟨a, by simp, h1.symm⟩
      · exact ⟨m, by simp [hm], h1⟩
    · intro m hm
      rcases List.mem_cons.mp hm with rfl | hm
      · exact maxFold_ge l _
      · exact h2 m hm

theorem minElement_spec (r : Magnitude) (l : List Magnitude) (h : l ≠ []) :
    (∃ m ∈ l, m.value = minElement r l) ∧ ∀ m ∈ l, minElement r l ≤ m.value := by
  cases l with
  | nil => exact absurd rfl h
  | cons a l =>
    unfold minElement
    obtain ⟨h1, h2⟩ := minFold_spec l a.value
    constructor
    · rcases h1 with h1 | ⟨m, hm, h1⟩
      · exact ⟨a, by simp, h1.symm⟩
      · exact ⟨m, by simp [hm], h1⟩
    · intro m hm
      rcases List.mem_cons.mp hm with rfl | hm
      · exact minFold_le l _
      · exact h2 m hm

/-- The length of a step at the last of the magnitudes `old ++ [new]`, all in order of time. -/
theorem length_spec (old : List Magnitude) (new : Magnitude) (hne : old ≠ [])
    (ho : (old ++ [new]).Pairwise (fun a b => a.ts ≤ b.ts)) (len : ℝ)
    (h : calculateStepLength (old ++ [new]) 700 old.length = some len) :
    ∃ hi lo : ℝ, len = 0.52 * Real.sqrt (Real.sqrt (hi - lo)) ∧
      (∃ P g Q, old = P ++ g :: Q ∧ g.value = hi ∧ ∀ y ∈ Q, new.ts - y.ts ≤ 700) ∧
      (∃ P g Q, old = P ++ g :: Q ∧ g.value = lo ∧ ∀ y ∈ Q, new.ts - y.ts ≤ 700) ∧
      ∀ g ∈ old, new.ts - g.ts ≤ 700 → lo ≤ g.value ∧ g.value ≤ hi := by
  unfold calculateStepLength at h
  rw [show (old ++ [new])[old.length]? = some new by simp] at h
  dsimp only at h
  have hlt : old.length < (old ++ [new]).length := by simp
  obtain ⟨k, hk, -⟩ := leftBorder_some (old ++ [new]) new.ts 700 old.length hlt
  rw [hk] at h
  dsimp only at h
  obtain ⟨k1, k2, k3⟩ := leftBorder_spec _ _ _ _ _ hlt hk
  have hpos : 0 < old.length := List.length_pos_iff.mpr hne
  have hkl : k < old.length := by
    rcases k3 with rfl | ⟨hk', h'⟩
    · exact hpos
    · by_contra hc
      have : k = old.length := by omega
      subst this
      rw [List.getElem_append_right (le_refl _)] at h'
      simp at h'
  have hrange : ((old ++ [new]).drop k).take (old.length - k) = old.drop k := by
    rw [List.drop_append_of_le_length hkl.le, List.take_append_of_le_length (by rw [List.length_drop])]
    rw [List.take_of_length_le (by rw [List.length_drop])]
  rw [hrange, length_div] at h
  have hne' : old.drop k ≠ [] := by
    intro h'
    have := congrArg List.length h'
    rw [List.length_drop] at this
    simp at this
    omega
  obtain ⟨⟨gM, hM1, hM2⟩, hM3⟩ := maxElement_spec new (old.drop k) hne'
  obtain ⟨⟨gm, hm1, hm2⟩, hm3⟩ := minElement_spec new (old.drop k) hne'
  have hsplit : ∀ g ∈ old.drop k, ∃ P Q, old = P ++ g :: Q ∧ ∀ y ∈ Q, new.ts - y.ts ≤ 700 := by
    intro g hg
    obtain ⟨A, B, hAB⟩ := List.append_of_mem hg
    refine ⟨old.take k ++ A, B, ?_, ?_⟩
    · rw [List.append_assoc, ← hAB, List.take_append_drop]
    · intro y hy
      obtain ⟨i, hi, hyi⟩ := List.mem_iff_getElem.mp hy
      have hold : old = old.take k ++ A ++ g :: B := by
        rw [List.append_assoc, ← hAB, List.take_append_drop]
      have hlen := congrArg List.length hold
      rw [List.length_append, List.length_append, List.length_take, List.length_cons] at hlen
      have hj : k + A.length + 1 + i < (old ++ [new]).length := by
        rw [List.length_append, List.length_singleton]
        omega
      have h2 := k2 (k + A.length + 1 + i) hj (by omega) (by omega)
      have : (old ++ [new])[k + A.length + 1 + i] = y := by
        rw [List.getElem_append_left (by omega)]
        have h3 : old[k + A.length + 1 + i]? = some y := by
          conv_lhs => rw [hold]
          have ht : (old.take k ++ A).length = k + A.length := by
            rw [List.length_append, List.length_take]; omega
          rw [List.getElem?_append_right (by omega), ht,
            show k + A.length + 1 + i - (k + A.length) = i + 1 by omega, List.getElem?_cons_succ,
            List.getElem?_eq_getElem hi, hyi]
        rw [List.getElem?_eq_getElem (by omega)] at h3
        exact Option.some.inj h3
      rw [this] at h2
      exact h2
  refine ⟨_, _, (Option.some.inj h).symm, ?_, ?_, ?_⟩
  · obtain ⟨P, Q, h1, h2⟩ := hsplit gM hM1
    exact ⟨P, gM, Q, h1, hM2, h2⟩
  · obtain ⟨P, Q, h1, h2⟩ := hsplit gm hm1
    exact ⟨P, gm, Q, h1, hm2, h2⟩
  · intro g hg hgt
    have hmem : g ∈ old.drop k := by
      rcases k3 with rfl | ⟨hk', h'⟩
      · simpa using hg
      · rw [← List.take_append_drop k old] at hg
        rcases List.mem_append.mp hg with hg | hg
        · exfalso
          rw [List.pairwise_append] at ho
          have hs := ho.1
          rw [← List.take_append_drop k old, List.pairwise_append] at hs
          have hkd : old[k] ∈ old.drop k := by
            rw [List.drop_eq_getElem_cons hkl]; exact List.mem_cons_self
          have := hs.2.2 g hg old[k] hkd
          rw [List.getElem_append_left hkl] at h'
          omega
        · exact hg
    exact ⟨hm3 g hmem, hM3 g hmem⟩

theorem samples_fusion (ms : List SensorMeasurement) : samples (fusionOps ms) = accelOf ms := by
  induction ms with
  | nil => rfl
  | cons m ms ih =>
    have : samples (fusionOps (m :: ms)) = opSamples (.sample m) ++ samples (fusionOps ms) := by
      simp [samples, fusionOps, opSamples]
    rw [this, ih]
    unfold accelOf opSamples
    by_cases hm : m.data.type = SensorType.ACCELEROMETER
    · simp [hm]
    · simp [hm]

theorem accelOf_append (ms : List SensorMeasurement) (m : SensorMeasurement) :
    accelOf (ms ++ [m]) = accelOf ms ++ (if m.data.type = SensorType.ACCELEROMETER then [m] else []) := by
  unfold accelOf
  rw [List.filter_append]
  by_cases hm : m.data.type = SensorType.ACCELEROMETER
  · simp [hm]
  · simp [hm]

/-- One more measurement: `update`, then `calculateSteps`. -/
theorem run_snoc (ms : List SensorMeasurement) (m : SensorMeasurement) (s s1 s2 : PedoState)
    (outs : List (List Step)) (o : List Step) (h : pedoRun (fusionOps ms) = some (s, outs))
    (h1 : update s m = some s1) (h2 : calculateSteps s1 = some (s2, o)) :
    pedoRun (fusionOps (ms ++ [m])) = some (s2, outs ++ [[], o]) := by
  unfold pedoRun at h ⊢
  unfold fusionOps at h ⊢
  rw [List.flatMap_append, List.foldlM_append, h]
  simp [pedoRecord, pedoStep, h1, h2, List.foldlM]

theorem ordered_left {A B : List SensorMeasurement} (h : Ordered (A ++ B)) : Ordered A := by
  unfold Ordered at h ⊢
  exact (List.pairwise_append.mp h).1

theorem run_hist (ms : List SensorMeasurement) (ho : Ordered (accelOf ms)) (hz : ∀ m ∈ accelOf ms, m.ts ≠ 0) :
    ∃ s outs, pedoRun (fusionOps ms) = some (s, outs) ∧ Hist (accelOf ms) s := by
  induction ms using List.reverseRecOn with
  | nil => exact ⟨{}, [], rfl, ⟨⟨[], rfl, by simp⟩, ⟨[], rfl, by simp⟩⟩⟩
  | append_singleton ms m ih =>
    rw [accelOf_append] at ho hz ⊢
    obtain ⟨s, outs, h1, h2⟩ := ih (ordered_left ho) (fun x hx => hz x (List.mem_append_left _ hx))
    obtain ⟨s', outs', g1, -, g3, g4⟩ := run_inv (fusionOps ms)
    rw [h1] at g1
    cases g1
    rw [samples_fusion] at g3
    by_cases hm : m.data.type = SensorType.ACCELEROMETER
    · rw [if_pos hm] at ho hz ⊢
      obtain ⟨s1, p1, p2, -, p4, p5⟩ := hist_push (hist_size h2 (max s.mags.length 1)) m ho (hz m (by simp))
      obtain ⟨s1', q1, q2, q3, q4⟩ := inv_push (inv_size g3 (max s.mags.length 1) (le_max_right _ _))
        (le_max_right _ _) m
      rw [p1] at q1
      cases q1
      obtain ⟨s2, new, r1, -, -, -, r5, -, r7, -⟩ := inv_steps q2 (by rw [q4]; exact g4)
      refine ⟨s2, _, run_snoc ms m s s1 s2 outs new h1 (by simp only [update, hm, if_true, p1]) r1, ?_⟩
      exact hist_steps p2 r5 r7
    · rw [if_neg hm] at ho hz ⊢
      rw [List.append_nil]
      obtain ⟨s2, new, r1, -, -, -, r5, -, r7, -⟩ :=
        inv_steps (inv_size g3 (max s.mags.length 1) (le_max_right _ _)) g4
      refine ⟨s2, _, run_snoc ms m s _ s2 outs new h1 (by simp only [update, hm, if_false]) r1, ?_⟩
      exact hist_steps (hist_size h2 _) r5 r7

theorem threshold_eq : MINIMAL_THRESHOLD_VALUE = threshold := by
  unfold MINIMAL_THRESHOLD_VALUE threshold
  norm_num

theorem mem_magsFrom {pre A : List SensorMeasurement} {P Q : List Magnitude} {g : Magnitude}
    (h : magsFrom pre A = P ++ g :: Q) :
    ∃ P' x Q', A = P' ++ x :: Q' ∧ g.ts = x.ts ∧ g.value = filteredValue (pre ++ P') x ∧
      Q.map Magnitude.ts = Q'.map Stamped.ts := by
  induction A generalizing pre P with
  | nil => simp [magsFrom] at h
  | cons a A ih =>
    rw [magsFrom] at h
    cases P with
    | nil =>
      rw [List.nil_append] at h
      injection h with h1 h2
      exact ⟨[], a, A, rfl, by rw [← h1], by rw [← h1]; simp, by rw [← h2, magsFrom_ts]⟩
    | cons p P =>
      rw [List.cons_append] at h
      injection h with h1 h2
      obtain ⟨P', x, Q', e1, e2, e3, e4⟩ := ih h2
      exact ⟨a :: P', x, Q', by rw [e1]; rfl, e2, by rw [e3]; simp, e4⟩

/-- **C77.** Measurements of all sensors are given one after the other, each followed by a request for the
steps, with the accelerometer samples in order of time and non-zero time stamps.  When the three
accelerometer samples before a new one lie within 1.4 s, a step is reported with the new sample exactly if
the filtered magnitude rises from below the threshold (previous sample) to above it (new sample) and the
last reported step is more than 300 ms ago.  The step has the time of the sample, and its length is
0.52 times the fourth root of the amplitude `hi - lo` of the filtered magnitudes of the last 700 ms:
all earlier samples within 700 ms count, and at most one more, the newest of the older ones. -/
theorem C77_detect (ms : List SensorMeasurement) (m a b c : SensorMeasurement) (A : List SensorMeasurement)
    (hA : accelOf ms = A ++ [a, b, c]) (hm : m.data.type = SensorType.ACCELEROMETER)
    (ho : Ordered (accelOf ms ++ [m])) (hz : ∀ x ∈ accelOf ms ++ [m], x.ts ≠ 0) (hdense : c.ts - a.ts ≤ 1400)
    (s : PedoState) (outs : List (List Step)) (h : pedoRun (fusionOps ms) = some (s, outs)) :
    ∃ s' o, pedoRun (fusionOps (ms ++ [m])) = some (s', outs ++ [[], o]) ∧
      (o ≠ [] ↔ filteredValue (A ++ [a, b]) c < threshold ∧ threshold < filteredValue (accelOf ms) m ∧
        m.ts - lastStepTs outs.flatten > 300) ∧
      ∀ st ∈ o, o = [st] ∧ st.ts = m.ts ∧ ∃ hi lo : ℝ, st.len = 0.52 * Real.sqrt (Real.sqrt (hi - lo)) ∧
        (∃ P x Q, accelOf ms = P ++ x :: Q ∧ filteredValue P x = hi ∧ ∀ y ∈ Q, m.ts - y.ts ≤ 700) ∧
        (∃ P x Q, accelOf ms = P ++ x :: Q ∧ filteredValue P x = lo ∧ ∀ y ∈ Q, m.ts - y.ts ≤ 700) ∧
        ∀ P x Q, accelOf ms = P ++ x :: Q → m.ts - x.ts ≤ 700 → lo ≤ filteredValue P x ∧ filteredValue P x ≤ hi := by
  obtain ⟨s0, outs0, h1, h2⟩ := run_hist ms (ordered_left ho) (fun x hx => hz x (List.mem_append_left _ hx))
  rw [h] at h1
  cases h1
  obtain ⟨s', outs', g1, -, g3, g4⟩ := run_inv (fusionOps ms)
  rw [h] at g1
  cases g1
  rw [samples_fusion] at g3
  obtain ⟨s1, p1, p2, p3, p4, p5⟩ := hist_push (hist_size h2 (max s.mags.length 1)) m ho (hz m (by simp))
  dsimp only at p3 p4
  obtain ⟨s1', q1, q2, q3, q4⟩ := inv_push (inv_size g3 (max s.mags.length 1) (le_max_right _ _))
    (le_max_right _ _) m
  rw [p1] at q1
  cases q1
  have hup : update s m = some s1 := by simp only [update, hm, if_true, p1]
  -- the buffer ends with the three samples before
  obtain ⟨d, hd, hold⟩ := h2.mags
  have hM : magsFrom [] (accelOf ms) = magsFrom [] A ++ [⟨a.ts, filteredValue A a⟩,
      ⟨b.ts, filteredValue (A ++ [a]) b⟩, ⟨c.ts, filteredValue (A ++ [a, b]) c⟩] := by
    rw [hA, magsFrom_append]
    simp [magsFrom]
  have hlast : (accelOf ms).getLast? = some c := by rw [hA]; simp
  have hlen : 3 ≤ s.mags.length := by
    by_contra hc
    have hl := congrArg List.length hd
    rw [hM, List.length_append, List.length_append] at hl
    simp only [List.length_cons, List.length_nil] at hl
    have hmem : (⟨a.ts, filteredValue A a⟩ : Magnitude) ∈ d := by
      have h3 : (magsFrom [] (accelOf ms))[(magsFrom [] A).length]? = some ⟨a.ts, filteredValue A a⟩ := by
        rw [hM]; simp
      rw [hd, List.getElem?_append_left (by omega)] at h3
      exact List.mem_of_getElem? h3
    have := hold _ hmem c hlast
    dsimp only at this
    omega
  obtain ⟨pre, hpre⟩ : ∃ pre, s.mags = pre ++ [⟨c.ts, filteredValue (A ++ [a, b]) c⟩] := by
    have hne : s.mags ≠ [] := by intro h; rw [h] at hlen; simp at hlen
    refine ⟨s.mags.dropLast, ?_⟩
    conv_lhs => rw [← List.dropLast_append_getLast hne]
    congr 2
    have h3 : (magsFrom [] (accelOf ms)).getLast? = some ⟨c.ts, filteredValue (A ++ [a, b]) c⟩ := by
      rw [hM]; simp
    rw [hd, List.getLast?_append, List.getLast?_eq_some_getLast hne, Option.some_or] at h3
    exact Option.some.inj h3
  -- one iteration of the loop
  have hsz : s1.magSize = pre.length + 1 := by
    rw [p4, hpre, List.length_append, List.length_singleton]
    omega
  have hl1 : s1.mags.length = pre.length + 2 := by
    rw [p3, hpre]; simp
  have hlt : pre.length + 1 < s1.mags.length := by omega
  have hcur : s1.mags[pre.length + 1] = ⟨m.ts, filteredValue (accelOf ms) m⟩ := by
    have : s1.mags[pre.length + 1]? = some ⟨m.ts, filteredValue (accelOf ms) m⟩ := by
      rw [p3, hpre]; simp
    rw [List.getElem?_eq_getElem hlt] at this
    exact Option.some.inj this
  have hprev : s1.mags[pre.length]'(by omega) = ⟨c.ts, filteredValue (A ++ [a, b]) c⟩ := by
    have : s1.mags[pre.length]? = some ⟨c.ts, filteredValue (A ++ [a, b]) c⟩ := by
      rw [p3, hpre]; simp
    rw [List.getElem?_eq_getElem (by omega)] at this
    exact Option.some.inj this
  obtain ⟨s2, new, r1, r2, -, -, r5, -, r7, -⟩ := inv_steps q2 (by rw [q4]; exact g4)
  refine ⟨s2, new, run_snoc ms m s s1 s2 outs new h hup r1, ?_⟩
  have hlastTs : s1.possibleTs = lastStepTs outs.flatten := q2.last
  have hnew : ∃ s3, stepBody (timeBetweenSteps s1.times) (pre.length + 1) (s1, []) = some (s3, new) := by
    unfold calculateSteps at r1
    rw [if_neg (by rw [hl1]; rw [hpre] at hlen; simp at hlen; omega), hsz, hl1,
      show pre.length + 2 - (pre.length + 1) = 1 by omega] at r1
    obtain ⟨s3, w, t1, -⟩ := inv_body (out := outs.flatten) (steps := []) (timeBetweenSteps s1.times)
      (between_pos _) pre.length (by simpa using q2) hlt
    simp only [stepLoop, t1, List.nil_append, Option.bind_some] at r1
    refine ⟨s3, ?_⟩
    rw [t1]
    cases hp : popOld Magnitude.ts (2 * UPDATE_TIME_INTERVAL_MS) s3.mags with
    | none => rw [hp] at r1; simp at r1
    | some x =>
      rw [hp] at r1
      simp only [Option.some.injEq, Prod.mk.injEq] at r1
      rw [List.nil_append, r1.2]
  obtain ⟨s3, hbody⟩ := hnew
  rcases stepBody_spec (timeBetweenSteps s1.times) (between_pos _) pre.length s1 [] q2.idle hlt with
    ⟨hc, len, -, hlenEq, heq⟩ | ⟨hc, heq⟩
  · rw [heq] at hbody
    have hnew : new = [⟨m.ts, len⟩] := by
      have := congrArg (Option.map Prod.snd) hbody
      simp only [Option.map_some, List.nil_append, Option.some.injEq, hcur] at this
      exact this.symm
    rw [hcur, hprev, hlastTs] at hc
    obtain ⟨c1, c2, c3⟩ := hc
    rw [threshold_eq] at c1 c2
    refine ⟨⟨fun _ => ⟨c1, c2, c3⟩, fun _ => by rw [hnew]; simp⟩, ?_⟩
    intro st hst
    rw [hnew, List.mem_singleton] at hst
    subst hst
    refine ⟨hnew, rfl, ?_⟩
    rw [p3, show pre.length + 1 = s.mags.length by rw [hpre]; simp] at hlenEq
    have hsorted : (s.mags ++ [(⟨m.ts, filteredValue (accelOf ms) m⟩ : Magnitude)]).Pairwise
        (fun a b : Magnitude => a.ts ≤ b.ts) := by
      have : ((s.mags ++ [(⟨m.ts, filteredValue (accelOf ms) m⟩ : Magnitude)]).map Magnitude.ts).Pairwise (· ≤ ·) := by
        have hsub : ((s.mags ++ [(⟨m.ts, filteredValue (accelOf ms) m⟩ : Magnitude)]).map Magnitude.ts).Sublist
            ((accelOf ms ++ [m]).map Stamped.ts) := by
          rw [List.map_append, List.map_append]
          refine List.Sublist.append ?_ (List.Sublist.refl _)
          rw [← magsFrom_ts [] (accelOf ms), hd, List.map_append]
          exact List.sublist_append_right _ _
        refine List.Pairwise.sublist hsub ?_
        rw [List.pairwise_map]
        exact ho
      rwa [List.pairwise_map] at this
    have hne : s.mags ≠ [] := by intro h; rw [h] at hlen; simp at hlen
    obtain ⟨hi, lo, e1, e2, e3, e4⟩ := length_spec s.mags _ hne hsorted len hlenEq
    have lift : ∀ v : ℝ, (∃ P g Q, s.mags = P ++ g :: Q ∧ g.value = v ∧ ∀ y ∈ Q, m.ts - y.ts ≤ 700) →
        ∃ P x Q, accelOf ms = P ++ x :: Q ∧ filteredValue P x = v ∧ ∀ y ∈ Q, m.ts - y.ts ≤ 700 := by
      rintro v ⟨P, g, Q, f1, f2, f3⟩
      rw [f1, ← List.append_assoc] at hd
      obtain ⟨P', x, Q', k1, k2, k3, k4⟩ := mem_magsFrom hd
      refine ⟨P', x, Q', k1, by rw [← f2, k3]; simp, ?_⟩
      intro y hy
      have : y.ts ∈ Q.map Magnitude.ts := by rw [k4]; exact List.mem_map.mpr ⟨y, hy, rfl⟩
      obtain ⟨g', hg', he⟩ := List.mem_map.mp this
      rw [← he]
      exact f3 g' hg'
    refine ⟨hi, lo, e1, lift hi e2, lift lo e3, ?_⟩
    intro P x Q hsplit hx
    have hg : (⟨x.ts, filteredValue P x⟩ : Magnitude) ∈ magsFrom [] (accelOf ms) := by
      rw [hsplit, magsFrom_append]
      refine List.mem_append_right _ ?_
      rw [magsFrom, List.nil_append]
      exact List.mem_cons_self
    rw [hd] at hg
    rcases List.mem_append.mp hg with hg | hg
    · exfalso
      have h5 := hold _ hg c hlast
      dsimp only at h5
      have h6 : c.ts ≤ m.ts := by
        unfold Ordered at ho
        rw [List.pairwise_append] at ho
        exact ho.2.2 c (by rw [hA]; simp) m (by simp)
      omega
    · exact e4 _ hg hx
  · rw [heq] at hbody
    have hnew : new = [] := by
      have := congrArg (Option.map Prod.snd) hbody
      simpa using this.symm
    rw [hnew]
    refine ⟨⟨fun h => absurd rfl h, ?_⟩, by simp⟩
    rintro ⟨c1, c2, c3⟩
    exfalso
    apply hc
    rw [hcur, hprev, hlastTs]
    unfold Crossing
    rw [threshold_eq]
    exact ⟨c1, c2, c3⟩

/-- **C77.** Measurements of other sensors never lead to a step. -/
theorem C77_other (ms : List SensorMeasurement) (m : SensorMeasurement)
    (hm : m.data.type ≠ SensorType.ACCELEROMETER) (s : PedoState) (outs : List (List Step))
    (h : pedoRun (fusionOps ms) = some (s, outs)) :
    ∃ s', pedoRun (fusionOps (ms ++ [m])) = some (s', outs ++ [[], []]) := by
  obtain ⟨s', outs', g1, -, g3, g4⟩ := run_inv (fusionOps ms)
  rw [h] at g1
  cases g1
  obtain ⟨s2, new, r1, -, -, -, -, r6, -⟩ := inv_steps (inv_size g3 (max s.mags.length 1) (le_max_right _ _)) g4
  have hn : new = [] := by
    apply List.length_eq_zero_iff.mp
    have := le_max_left s.mags.length 1
    dsimp only at r6
    omega
  subst hn
  exact ⟨s2, run_snoc ms m s _ s2 outs [] h (by simp only [update, hm, if_false]) r1⟩

end Verif.Pedo
