import Verif.Pedo.Example

/-!
# The stand-alone pedometer: how the samples are grouped does not matter: C102
-/

namespace Verif.Pedo

open Verif

/-! ## Specification -/

/-- The calls of a user of the stand-alone pedometer: each group of samples is given to `update`, then the steps are asked for. -/
def groupOps (groups : List (List SensorMeasurement)) : List PedoOp :=
  groups.flatMap (fun g => [PedoOp.batch g, PedoOp.steps])

/-- Samples in order of time, with times other than 0, never more than 700 ms apart, the first three within 200 ms. -/
structure Dense (ms : List SensorMeasurement) : Prop where
  ordered : Ordered ms
  times : ∀ m ∈ ms, m.ts ≠ 0
  gaps : ms.IsChain (fun a b => b.ts - a.ts ≤ 700)
  start : ∀ a, ms.head? = some a → ∀ m ∈ ms.take 3, m.ts - a.ts < 200

/-! ## Proofs -/

theorem leftBorder_prefix (M N : List Magnitude) (r T : Int) (n : ℕ) (hn : n < M.length) :
    leftBorder (M ++ N) r T n = leftBorder M r T n := by
  induction n with
  | zero => rfl
  | succ n ih =>
    unfold leftBorder
    rw [List.getElem?_append_left hn, ih (by omega)]

theorem length_prefix (M N : List Magnitude) (T : Int) (n : ℕ) (hn : n < M.length) :
    calculateStepLength (M ++ N) T n = calculateStepLength M T n := by
  unfold calculateStepLength
  rw [List.getElem?_append_left hn, List.getElem?_eq_getElem hn]
  dsimp only
  rw [leftBorder_prefix M N _ T n hn]
  obtain ⟨k, hk, hle⟩ := leftBorder_some M M[n].ts T n hn
  rw [hk]
  dsimp only
  rw [List.drop_append_of_le_length (by omega), List.take_append_of_le_length (by rw [List.length_drop]; omega)]

theorem leftBorder_suffix (d m : List Magnitude) (r T : Int) (n : ℕ) (hn : n < m.length)
    (h : d ≠ [] → ∀ a, m.head? = some a → r - a.ts > T) :
    leftBorder (d ++ m) r T (d.length + n) = (leftBorder m r T n).map (fun k => d.length + k) := by
  induction n with
  | zero =>
    rw [Nat.add_zero]
    cases hd : d.length with
    | zero => rfl
    | succ k =>
      unfold leftBorder
      have hlt : d.length < (d ++ m).length := by rw [List.length_append]; omega
      have e : (d ++ m)[k + 1]? = m[0]? := by
        rw [← hd, List.getElem?_append_right (le_refl _), Nat.sub_self]
      rw [e, List.getElem?_eq_getElem hn]
      dsimp only
      have hne : d ≠ [] := by intro h; rw [h] at hd; cases hd
      have := h hne m[0] (by rw [List.head?_eq_getElem?, List.getElem?_eq_getElem hn])
      rw [if_neg (by omega)]
      rfl
  | succ n ih =>
    rw [← Nat.add_assoc]
    unfold leftBorder
    have e : (d ++ m)[d.length + n + 1]? = m[n + 1]? := by
      rw [List.getElem?_append_right (by omega)]
      congr 1
      omega
    rw [e, List.getElem?_eq_getElem hn, ih (by omega)]
    dsimp only
    split_ifs
    · rfl
    · rfl

theorem length_suffix (d m : List Magnitude) (T : Int) (n : ℕ) (hn : n < m.length)
    (h : d ≠ [] → ∀ a, m.head? = some a → m[n].ts - a.ts > T) :
    calculateStepLength (d ++ m) T (d.length + n) = calculateStepLength m T n := by
  unfold calculateStepLength
  have e : (d ++ m)[d.length + n]? = m[n]? := by
    rw [List.getElem?_append_right (by omega)]
    congr 1
    omega
  rw [e, List.getElem?_eq_getElem hn]
  dsimp only
  rw [leftBorder_suffix d m _ T n hn h]
  obtain ⟨k, hk, hle⟩ := leftBorder_some m m[n].ts T n hn
  rw [hk]
  dsimp only [Option.map_some]
  rw [List.drop_append, List.drop_eq_nil_of_le (show d.length ≤ d.length + k by omega), List.nil_append]
  rw [show d.length + k - d.length = k by omega, show d.length + n - (d.length + k) = n - k by omega]

open Classical in
/-- All steps found in the magnitudes up to the index `n`. -/
noncomputable def found (M : List Magnitude) : ℕ → List Step
  | 0 => []
  | n + 1 =>
    let before := found M n
    match M[n]?, M[n + 1]? with
    | some p, some c =>
      if Crossing p c (lastStepTs before) then before ++ [⟨c.ts, (calculateStepLength M 700 (n + 1)).getD 0⟩] else before
    | _, _ => before

theorem found_prefix (M N : List Magnitude) (n : ℕ) (hn : n < M.length ∨ n = 0) : found (M ++ N) n = found M n := by
  induction n with
  | zero => rfl
  | succ n ih =>
    have hn : n + 1 < M.length := by rcases hn with h | h <;> omega
    unfold found
    rw [ih (by omega), List.getElem?_append_left hn, List.getElem?_append_left (by omega), length_prefix M N 700 _ hn]

open Classical in
theorem found_loop (b : ℝ) (hb : b > 0) (d : List Magnitude) (n : ℕ) :
    ∀ (i : ℕ) (s : PedoState) (out steps : List Step), s.isStep = false → s.possibleTs = lastStepTs (out ++ steps) →
      i + 1 + n ≤ s.mags.length → (d ≠ [] → ∀ j (hj : j < s.mags.length), i < j → ∀ a, s.mags.head? = some a → s.mags[j].ts - a.ts > 700) →
      out ++ steps = found (d ++ s.mags) (d.length + i) →
      ∃ s' new, stepLoop b (i + 1) n (s, steps) = some (s', steps ++ new) ∧
        out ++ (steps ++ new) = found (d ++ s.mags) (d.length + i + n) := by
  induction n with
  | zero =>
    intro i s out steps _ _ _ _ he
    exact ⟨s, [], by simp [stepLoop], by simpa using he⟩
  | succ n ih =>
    intro i s out steps h0 hp hi hd he
    have hlt : i + 1 < s.mags.length := by omega
    have e1 : (d ++ s.mags)[d.length + i]? = some (s.mags[i]'(by omega)) := by
      rw [List.getElem?_append_right (by omega), Nat.add_sub_cancel_left, List.getElem?_eq_getElem (by omega)]
    have e2 : (d ++ s.mags)[d.length + i + 1]? = some s.mags[i + 1] := by
      rw [List.getElem?_append_right (by omega), show d.length + i + 1 - d.length = i + 1 by omega, List.getElem?_eq_getElem hlt]
    have hf : found (d ++ s.mags) (d.length + (i + 1)) = if Crossing (s.mags[i]'(by omega)) s.mags[i + 1] s.possibleTs then
        (out ++ steps) ++ [⟨s.mags[i + 1].ts, (calculateStepLength s.mags 700 (i + 1)).getD 0⟩] else out ++ steps := by
      rw [← Nat.add_assoc]
      unfold found
      rw [e1, e2, ← he]
      dsimp only
      rw [hp, Nat.add_assoc, length_suffix d s.mags 700 (i + 1) hlt (fun hne a ha => hd hne (i + 1) hlt (by omega) a ha)]
    rcases stepBody_spec b hb i s steps h0 hlt with ⟨hc, len, -, hlen, hbody⟩ | ⟨hc, hbody⟩
    · rw [if_pos hc, hlen, Option.getD_some] at hf
      obtain ⟨s', new, g1, g2⟩ := ih (i + 1) { s with
          times := if s.mags[i + 1].ts - s.stepTime < 2000 then s.times ++ [s.mags[i + 1].ts - s.stepTime]
            else s.times,
          possibleTs := s.mags[i + 1].ts, stepTime := s.mags[i + 1].ts } out (steps ++ [⟨s.mags[i + 1].ts, len⟩]) h0
          (by rw [← List.append_assoc]; simp [lastStepTs]) (by dsimp only; omega)
          (fun hne j hj hij a ha => hd hne j hj (by omega) a ha) (by dsimp only; rw [hf, List.append_assoc])
      refine ⟨s', ⟨s.mags[i + 1].ts, len⟩ :: new, ?_, ?_⟩
      · unfold stepLoop
        rw [hbody, Option.bind_some, g1, List.append_assoc]
        rfl
      · dsimp only at g2
        rw [show d.length + i + (n + 1) = d.length + (i + 1) + n by omega, ← g2, List.append_assoc]
        rfl
    · rw [if_neg hc] at hf
      obtain ⟨s', new, g1, g2⟩ := ih (i + 1) s out steps h0 hp (by omega)
          (fun hne j hj hij a ha => hd hne j hj (by omega) a ha) hf.symm
      refine ⟨s', new, ?_, ?_⟩
      · unfold stepLoop
        rw [hbody, Option.bind_some, g1]
      · rw [show d.length + i + (n + 1) = d.length + (i + 1) + n by omega, ← g2]

theorem hist_pushes {A : List SensorMeasurement} {s : PedoState} (h : Hist A s) (b : List SensorMeasurement)
    (ho : Ordered (A ++ b)) (hz : ∀ m ∈ b, m.ts ≠ 0) :
    ∃ s', b.foldlM push s = some s' ∧ Hist (A ++ b) s' ∧ s'.mags = s.mags ++ magsFrom A b ∧ s'.magSize = s.magSize := by
  induction b generalizing A s with
  | nil => exact ⟨s, rfl, by simpa using h, by simp [magsFrom], rfl⟩
  | cons m b ih =>
    have e : A ++ m :: b = A ++ [m] ++ b := by simp
    rw [e] at ho
    obtain ⟨s1, h1, h2, h3, h4, -⟩ := hist_push h m (ordered_left ho) (hz m (by simp))
    obtain ⟨s2, g1, g2, g3, g4⟩ := ih h2 ho (fun x hx => hz x (by simp [hx]))
    refine ⟨s2, ?_, by rw [e]; exact g2, ?_, g4.trans h4⟩
    · rw [List.foldlM_cons, h1]
      exact g1
    · rw [g3, h3, magsFrom, List.append_assoc]
      rfl

/-- In a window that is not longer than 200 ms the filtered magnitude is not positive. -/
theorem start_value (A : List SensorMeasurement) (m : SensorMeasurement) (h : ∀ x ∈ A, m.ts - x.ts < 200) :
    filteredValue A m ≤ 0 := by
  have hw : ∀ T : Int, 200 ≤ T → within m.ts T (A ++ [m]) = A ++ [m] := by
    intro T hT
    unfold within
    rw [List.filter_eq_self]
    intro x hx
    rcases List.mem_append.mp hx with hx | hx
    · have := h x hx
      simp only [decide_eq_true_eq]; omega
    · rw [List.mem_singleton] at hx
      simp only [decide_eq_true_eq, hx]; omega
  unfold filteredValue
  dsimp only
  rw [hw 200 (le_refl _), hw 2500 (by norm_num)]
  have h0 : 0 ≤ meanMagn (A ++ [m]) := by
    unfold meanMagn
    apply div_nonneg
    · apply List.sum_nonneg
      intro x hx
      obtain ⟨y, -, rfl⟩ := List.mem_map.mp hx
      exact Real.sqrt_nonneg _
    · positivity
  have h1 : 0 ≤ meanMagn (A ++ [m]) / ((A ++ [m]).length : ℝ) := div_nonneg h0 (by positivity)
  linarith

/-- No step within the first three samples. -/
theorem found_start {A : List SensorMeasurement} (h : Dense A) (n : ℕ) (hn : n ≤ 2) : found (magsFrom [] A) n = [] := by
  induction n with
  | zero => rfl
  | succ n ih =>
    unfold found
    rw [ih (by omega)]
    dsimp only
    cases hc : (magsFrom [] A)[n + 1]? with
    | none => cases (magsFrom [] A)[n]? <;> rfl
    | some c =>
      cases hp : (magsFrom [] A)[n]? with
      | none => rfl
      | some p =>
        dsimp only
        rw [if_neg]
        rintro ⟨-, h2, -⟩
        obtain ⟨hlt, hget⟩ := List.getElem?_eq_some_iff.mp hc
        have hsplit : magsFrom [] A = (magsFrom [] A).take (n + 1) ++ c :: (magsFrom [] A).drop (n + 2) := by
          rw [← hget, ← List.drop_eq_getElem_cons hlt, List.take_append_drop]
        obtain ⟨P, x, Q, e1, e2, e3, e4⟩ := mem_magsFrom hsplit
        have hlen : P.length = n + 1 := by
          have l1 := congrArg List.length e1
          have l2 := congrArg List.length e4
          rw [magsFrom_length] at hlt
          simp [magsFrom_length] at l1 l2
          omega
        have hv : c.value ≤ 0 := by
          rw [e3, List.nil_append]
          apply start_value
          intro y hy
          have ho := h.ordered
          unfold Ordered at ho
          cases P with
          | nil => simp at hlen
          | cons a P =>
            have hs := h.start a (by rw [e1]; rfl) x (by
              rw [e1, List.take_append, show 3 - (a :: P).length = 3 - (n + 1 + 1) + 1 by omega]
              simp)
            rw [e1, List.cons_append, List.pairwise_cons] at ho
            rcases List.mem_cons.mp hy with rfl | hy
            · exact hs
            · have := ho.1 y (List.mem_append_left _ hy)
              omega
        unfold MINIMAL_THRESHOLD_VALUE at h2
        norm_num at h2
        linarith

theorem chain_mags {A : List SensorMeasurement} (h : A.IsChain (fun a b => b.ts - a.ts ≤ 700)) :
    (magsFrom [] A).IsChain (fun a b => b.ts - a.ts ≤ 700) := by
  have e : ((magsFrom [] A).map Magnitude.ts).IsChain (fun a b => b - a ≤ 700) := by
    rw [magsFrom_ts, List.isChain_map]
    exact h
  rwa [List.isChain_map] at e

theorem dense_prefix {A B : List SensorMeasurement} (h : Dense (A ++ B)) : Dense A := by
  refine ⟨ordered_left h.ordered, fun m hm => h.times m (List.mem_append_left _ hm), (List.isChain_append.mp h.gaps).1, ?_⟩
  intro a ha m hm
  refine h.start a ?_ m ?_
  · rw [List.head?_append, ha]; rfl
  · rw [List.take_append]
    exact List.mem_append_left _ hm

/-- The dropped magnitudes are old, so the buffer reaches back more than 700 ms. -/
theorem hist_reach {A : List SensorMeasurement} {s : PedoState} (hg : A.IsChain (fun a b => b.ts - a.ts ≤ 700))
    {d : List Magnitude} (hd : magsFrom [] A = d ++ s.mags)
    (hold : ∀ y ∈ d, ∀ z, A.getLast? = some z → z.ts - y.ts > 1400) (hne : d ≠ []) :
    ∃ a z, s.mags.head? = some a ∧ A.getLast? = some z ∧ s.mags.getLast?.map Magnitude.ts = some z.ts ∧ z.ts - a.ts > 700 ∧
      2 < s.mags.length := by
  have hA : A ≠ [] := by
    rintro rfl
    simp only [magsFrom] at hd
    exact hne (List.append_eq_nil_iff.mp hd.symm).1
  obtain ⟨z, hz⟩ : ∃ z, A.getLast? = some z := ⟨_, List.getLast?_eq_some_getLast hA⟩
  obtain ⟨g, hg1, hg2⟩ := getLast_mags A z hz
  have hc := chain_mags hg
  have hx := hold _ (List.getLast_mem hne) z hz
  rw [hd] at hg1 hc
  have hm : s.mags ≠ [] := by
    intro h
    rw [h, List.append_nil, List.getLast?_eq_some_getLast hne] at hg1
    cases hg1
    omega
  rw [List.getLast?_append, List.getLast?_eq_some_getLast hm, Option.some_or] at hg1
  have hb := (List.isChain_append.mp hc).2.2 _ (List.getLast?_eq_some_getLast hne)
  have hcm := (List.isChain_append.mp hc).2.1
  cases hs : s.mags with
  | nil => exact absurd hs hm
  | cons a l =>
    have hb := hb a (by rw [hs]; rfl)
    simp only [hs] at hg1 hcm
    refine ⟨a, z, rfl, hz, ?_, by omega, ?_⟩
    · rw [List.getLast?_eq_some_getLast (by simp), hg1, Option.map_some, hg2]
    · cases l with
      | nil =>
        simp only [List.getLast_singleton, Option.some.injEq] at hg1
        rw [hg1] at hb
        omega
      | cons b l =>
        cases l with
        | nil =>
          simp at hg1 hcm
          rw [hg1] at hcm
          omega
        | cons c l => simp

/-- One group. -/
theorem group_step {A b : List SensorMeasurement} {s s1 : PedoState} {out : List Step} (hD : Dense (A ++ b))
    (hh : Hist A s) (hf : out = found (magsFrom [] A) ((magsFrom [] A).length - 1)) (hu : updateBatch s b = some s1)
    (hi : Inv (A ++ b) s1 out) (ht : s1.times.length ≤ 50) :
    ∃ s2 new, calculateSteps s1 = some (s2, new) ∧ Hist (A ++ b) s2 ∧
      out ++ new = found (magsFrom [] (A ++ b)) ((magsFrom [] (A ++ b)).length - 1) := by
  obtain ⟨s1', p1, p2, p3, p4⟩ := hist_pushes (hist_size hh (max s.mags.length 1)) b hD.ordered
    (fun m hm => hD.times m (List.mem_append_right _ hm))
  unfold updateBatch at hu
  rw [p1] at hu
  cases hu
  dsimp only at p3 p4
  obtain ⟨s2, new, r1, -, -, -, r5, -, r7, -⟩ := inv_steps hi ht
  refine ⟨s2, new, r1, hist_steps p2 r5 r7, ?_⟩
  obtain ⟨d, hd, hold⟩ := hh.mags
  have hM : magsFrom [] (A ++ b) = d ++ s1.mags := by
    rw [magsFrom_append, hd, p3, List.nil_append, List.append_assoc]
  have hDA := dense_prefix hD
  unfold calculateSteps at r1
  by_cases hl : s1.mags.length ≤ 3
  · rw [if_pos hl] at r1
    simp only [Option.some.injEq, Prod.mk.injEq] at r1
    rw [← r1.2, List.append_nil]
    by_cases hb : b = []
    · rw [hb, List.append_nil]; exact hf
    · have hde : d = [] := by
        by_contra hne
        obtain ⟨-, -, -, -, -, -, h2⟩ := hist_reach hDA.gaps hd hold hne
        have := congrArg List.length p3
        rw [List.length_append, magsFrom_length] at this
        have : 0 < b.length := List.length_pos_iff.mpr hb
        omega
      subst hde
      rw [List.nil_append] at hM hd
      have hle : (magsFrom [] A).length ≤ (magsFrom [] (A ++ b)).length := by
        rw [magsFrom_length, magsFrom_length, List.length_append]; omega
      rw [found_start hD _ (by rw [hM]; omega), hf, found_start hDA _ (by rw [hM] at hle; omega)]
  · rw [if_neg hl] at r1
    have hmag : s.mags = [] → d = [] := by
      intro h
      by_contra hne
      obtain ⟨-, -, -, -, -, -, h2⟩ := hist_reach hDA.gaps hd hold hne
      rw [h] at h2
      simp at h2
    have hlen3 := congrArg List.length p3
    rw [List.length_append, magsFrom_length] at hlen3
    have hpos : s1.magSize = (max s.mags.length 1 - 1) + 1 := by
      rw [p4]
      have := le_max_right s.mags.length 1
      omega
    have hidx : s.mags.length ≤ max s.mags.length 1 - 1 + 1 ∧ max s.mags.length 1 - 1 + 1 ≤ s1.mags.length := by
      have := le_max_left s.mags.length 1
      rcases max_choice s.mags.length 1 with h | h <;> omega
    have hk : max s.mags.length 1 - 1 = s.mags.length - 1 := by
      rcases max_choice s.mags.length 1 with h | h
      · rw [h]
      · have := le_max_left s.mags.length 1
        omega
    generalize hi' : max s.mags.length 1 - 1 = i at *
    obtain ⟨s', new', g1, g2⟩ := found_loop (timeBetweenSteps s1.times) (between_pos _) d
      (s1.mags.length - (i + 1)) i s1 out [] hi.idle (by rw [List.append_nil]; exact hi.last) (by omega) (by
        intro hne j hj hij a ha
        obtain ⟨a', z, e1, e2, e3, e4, e5⟩ := hist_reach hDA.gaps hd hold hne
        have ha' : a = a' := by
          rw [p3, List.head?_append, e1] at ha
          exact (Option.some.inj ha).symm
        subst ha'
        have hz : z.ts ≤ s1.mags[j].ts := by
          have hb : s1.mags[j] ∈ magsFrom A b := by
            have h5 : s1.mags[j]? = (magsFrom A b)[j - s.mags.length]? := by
              rw [p3, List.getElem?_append_right (by omega)]
            rw [List.getElem?_eq_getElem hj] at h5
            exact List.mem_of_getElem? h5.symm
          have hb2 : s1.mags[j].ts ∈ b.map Stamped.ts := by
            rw [← magsFrom_ts A b]
            exact List.mem_map.mpr ⟨_, hb, rfl⟩
          obtain ⟨y, hy, hyt⟩ := List.mem_map.mp hb2
          rw [← hyt]
          have ho := hD.ordered
          unfold Ordered at ho
          exact (List.pairwise_append.mp ho).2.2 z (List.mem_of_getLast? e2) y hy
        omega) (by
        rw [List.append_nil, hf, ← hM, magsFrom_append, List.nil_append]
        have hl2 := congrArg List.length hd
        rw [List.length_append] at hl2
        have hx : (magsFrom [] A).length - 1 = d.length + i := by
          by_cases hs : s.mags = []
          · have h6 := hmag hs
            simp only [h6, hs, List.length_nil] at hl2 hk ⊢
            omega
          · have := List.length_pos_iff.mpr hs
            omega
        rw [hx, found_prefix]
        by_cases hs : s.mags = []
        · right
          rw [hs] at hk
          rw [hmag hs, hk]
          rfl
        · left
          have := List.length_pos_iff.mpr hs
          omega)
    rw [hpos, g1] at r1
    dsimp only at r1
    have hnew : new' = new := by
      cases hp : popOld Magnitude.ts (2 * UPDATE_TIME_INTERVAL_MS) s'.mags with
      | none => rw [hp] at r1; simp at r1
      | some x =>
        rw [hp] at r1
        simp only [List.nil_append, Option.some.injEq, Prod.mk.injEq] at r1
        exact r1.2
    rw [List.nil_append, hnew, ← hM] at g2
    rw [g2]
    congr 1
    rw [hM, List.length_append]
    omega

theorem groups_snoc (gs : List (List SensorMeasurement)) (g : List SensorMeasurement) (s s1 s2 : PedoState)
    (outs : List (List Step)) (new : List Step) (h : pedoRun (groupOps gs) = some (s, outs)) (h1 : updateBatch s g = some s1)
    (h2 : calculateSteps s1 = some (s2, new)) :
    pedoRun (groupOps gs ++ [.batch g]) = some (s1, outs ++ [[]]) ∧
    pedoRun (groupOps (gs ++ [g])) = some (s2, outs ++ [[], new]) := by
  have e : groupOps (gs ++ [g]) = groupOps gs ++ [.batch g, .steps] := by simp [groupOps]
  rw [e]
  unfold pedoRun at h ⊢
  rw [List.foldlM_append, List.foldlM_append, h]
  constructor
  · simp [pedoRecord, pedoStep, h1, List.foldlM]
  · simp [pedoRecord, pedoStep, h1, h2, List.foldlM]

theorem samples_groups (gs : List (List SensorMeasurement)) : samples (groupOps gs) = gs.flatten := by
  induction gs with
  | nil => rfl
  | cons g gs ih =>
    have : samples (groupOps (g :: gs)) = g ++ samples (groupOps gs) := by simp [samples, groupOps, opSamples]
    rw [this, ih, List.flatten_cons]

theorem groups_run (gs : List (List SensorMeasurement)) (hD : Dense gs.flatten) :
    ∃ s outs, pedoRun (groupOps gs) = some (s, outs) ∧ Hist gs.flatten s ∧
      outs.flatten = found (magsFrom [] gs.flatten) ((magsFrom [] gs.flatten).length - 1) := by
  induction gs using List.reverseRecOn with
  | nil => exact ⟨{}, [], rfl, ⟨⟨[], rfl, by simp⟩, ⟨[], rfl, by simp⟩⟩, rfl⟩
  | append_singleton gs g ih =>
    have e : (gs ++ [g]).flatten = gs.flatten ++ g := by simp
    rw [e] at hD ⊢
    obtain ⟨s, outs, h1, h2, h3⟩ := ih (dense_prefix hD)
    obtain ⟨s1, p1, -⟩ := hist_pushes (hist_size h2 (max s.mags.length 1)) g hD.ordered
      (fun m hm => hD.times m (List.mem_append_right _ hm))
    have hu : updateBatch s g = some s1 := p1
    obtain ⟨s1', outs1, q1, -, q3, q4⟩ := run_inv (groupOps gs ++ [.batch g])
    have hr : pedoRun (groupOps gs ++ [.batch g]) = some (s1, outs ++ [[]]) := by
      unfold pedoRun at h1 ⊢
      rw [List.foldlM_append, h1]
      simp [pedoRecord, pedoStep, hu, List.foldlM]
    rw [hr] at q1
    cases q1
    have hs : samples (groupOps gs ++ [.batch g]) = gs.flatten ++ g := by
      have : samples (groupOps gs ++ [.batch g]) = samples (groupOps gs) ++ g := by simp [samples, opSamples]
      rw [this, samples_groups]
    rw [hs, show (outs ++ [([] : List Step)]).flatten = outs.flatten by simp] at q3
    obtain ⟨s2, new, r1, r2, r3⟩ := group_step hD h2 h3 hu q3 q4
    refine ⟨s2, _, (groups_snoc gs g s s1 s2 outs new h1 hu r1).2, r2, ?_⟩
    rw [← r3]
    simp

/-! ## Theorems -/

/-- **C102.** A user of the stand-alone pedometer gives it the samples in groups and asks for the steps after each group.
However the same samples are grouped, the same steps are reported. -/
theorem C102_grouping (gs hs : List (List SensorMeasurement)) (hD : Dense gs.flatten) (he : gs.flatten = hs.flatten)
    (s t : PedoState) (outs outt : List (List Step)) (h1 : pedoRun (groupOps gs) = some (s, outs))
    (h2 : pedoRun (groupOps hs) = some (t, outt)) : outs.flatten = outt.flatten := by
  obtain ⟨s', outs', g1, -, g3⟩ := groups_run gs hD
  obtain ⟨t', outt', k1, -, k3⟩ := groups_run hs (by rw [← he]; exact hD)
  rw [h1] at g1
  rw [h2] at k1
  cases g1
  cases k1
  rw [g3, k3, he]

theorem run_versions (ms : List SensorMeasurement) :
    pedoRun (fusionOps ms) = pedoRun (groupOps (ms.map (fun m => if m.data.type = SensorType.ACCELEROMETER then [m] else []))) := by
  unfold pedoRun
  generalize (({}, []) : PedoState × List (List Step)) = st
  induction ms generalizing st with
  | nil => rfl
  | cons m ms ih =>
    have e1 : fusionOps (m :: ms) = [.sample m, .steps] ++ fusionOps ms := by simp [fusionOps]
    have e2 : groupOps ((m :: ms).map (fun m => if m.data.type = SensorType.ACCELEROMETER then [m] else [])) =
        [.batch (if m.data.type = SensorType.ACCELEROMETER then [m] else []), .steps] ++
          groupOps (ms.map (fun m => if m.data.type = SensorType.ACCELEROMETER then [m] else [])) := by simp [groupOps]
    have e3 : pedoRecord st (.sample m) = pedoRecord st (.batch (if m.data.type = SensorType.ACCELEROMETER then [m] else [])) := by
      unfold pedoRecord pedoStep update updateBatch
      by_cases hm : m.data.type = SensorType.ACCELEROMETER
      · simp [hm, List.foldlM]
      · simp [hm, List.foldlM]
    rw [e1, e2, List.foldlM_append, List.foldlM_append, List.foldlM_cons, List.foldlM_cons, e3]
    congr 1
    funext st'
    exact ih st'

theorem flatten_accel (ms : List SensorMeasurement) :
    (ms.map (fun m => if m.data.type = SensorType.ACCELEROMETER then [m] else [])).flatten = accelOf ms := by
  induction ms with
  | nil => rfl
  | cons m ms ih =>
    rw [List.map_cons, List.flatten_cons, ih]
    unfold accelOf
    by_cases hm : m.data.type = SensorType.ACCELEROMETER <;> simp [hm]

/-- **C102.** The pedometer of the library, which gets the messages of all sensors one at a time, and the stand-alone
pedometer, which gets the accelerometer samples in groups of any size, report the same steps. -/
theorem C102_versions (ms : List SensorMeasurement) (gs : List (List SensorMeasurement)) (hD : Dense gs.flatten)
    (he : gs.flatten = accelOf ms) (s t : PedoState) (outs outt : List (List Step))
    (h1 : pedoRun (groupOps gs) = some (s, outs)) (h2 : pedoRun (fusionOps ms) = some (t, outt)) :
    outs.flatten = outt.flatten := by
  rw [run_versions] at h2
  exact C102_grouping gs _ hD (by rw [he, flatten_accel]) s t outs outt h1 h2

/-! ## Examples and findings -/

theorem acc_ts (t : Int) (v : ℝ) : (acc t v).ts = t := rfl

theorem fv3 : filteredValue [acc 1000 0, acc 1050 0] (acc 1100 0) = 0 := by
  simp [filteredValue, within, meanMagn, acc_ts, magnitude_acc]

theorem fv4 : filteredValue [acc 1000 0, acc 1050 0, acc 1100 0] (acc 1300 10) = 5 := by
  have h10 : magnitude (acc 1300 10).data.values = 10 := magnitude_acc 1300 10 (by norm_num)
  simp [filteredValue, within, meanMagn, acc_ts, magnitude_acc, h10]
  norm_num

/-- Samples at rest for 100 ms, a strong one, one at rest. -/
theorem dense5 : Dense [acc 1000 0, acc 1050 0, acc 1100 0, acc 1300 10, acc 1350 0] :=
  ⟨by simp [Ordered, acc_ts], by simp [acc_ts], by simp [acc_ts], by simp [acc_ts]⟩

theorem mags5 : magsFrom [] [acc 1000 0, acc 1050 0, acc 1100 0, acc 1300 10, acc 1350 0] =
    magsFrom [] [acc 1000 0, acc 1050 0] ++ [⟨1100, 0⟩, ⟨1300, 5⟩,
      ⟨1350, filteredValue [acc 1000 0, acc 1050 0, acc 1100 0, acc 1300 10] (acc 1350 0)⟩] := by
  simp only [magsFrom, List.nil_append, List.cons_append, acc_ts, fv3, fv4]

theorem found5 : ∃ len, found (magsFrom [] [acc 1000 0, acc 1050 0, acc 1100 0, acc 1300 10, acc 1350 0]) 3 = [⟨1300, len⟩] := by
  unfold found
  rw [found_start dense5 2 (le_refl _), mags5]
  dsimp only
  simp only [magsFrom, List.cons_append, List.nil_append, List.getElem?_cons_succ, List.getElem?_cons_zero]
  rw [if_pos]
  · exact ⟨_, rfl⟩
  · refine ⟨?_, ?_, ?_⟩
    · unfold MINIMAL_THRESHOLD_VALUE; norm_num
    · unfold MINIMAL_THRESHOLD_VALUE; norm_num
    · decide

/-- The hypotheses of C102 are met, and there is a step to report: one call with all samples, or one call per sample. -/
example : ∃ s t outs outt len, pedoRun (groupOps [[acc 1000 0, acc 1050 0, acc 1100 0, acc 1300 10, acc 1350 0]]) = some (s, outs) ∧
    pedoRun (groupOps [[acc 1000 0], [acc 1050 0], [acc 1100 0], [acc 1300 10], [], [acc 1350 0]]) = some (t, outt) ∧
    outs.flatten = outt.flatten ∧ (⟨1300, len⟩ : Step) ∈ outt.flatten := by
  obtain ⟨s, outs, h1, -, h3⟩ := groups_run [[acc 1000 0, acc 1050 0, acc 1100 0, acc 1300 10, acc 1350 0]] dense5
  obtain ⟨t, outt, k1, -⟩ := groups_run [[acc 1000 0], [acc 1050 0], [acc 1100 0], [acc 1300 10], [], [acc 1350 0]] dense5
  have e := C102_grouping [[acc 1000 0, acc 1050 0, acc 1100 0, acc 1300 10, acc 1350 0]]
    [[acc 1000 0], [acc 1050 0], [acc 1100 0], [acc 1300 10], [], [acc 1350 0]] dense5 rfl s t outs outt h1 k1
  obtain ⟨len, hlen⟩ := found5
  refine ⟨s, t, outs, outt, len, h1, k1, e, ?_⟩
  rw [← e, h3]
  change _ ∈ found (magsFrom [] [acc 1000 0, acc 1050 0, acc 1100 0, acc 1300 10, acc 1350 0]) 4
  unfold found
  rw [hlen]
  dsimp only
  split
  · split_ifs <;> simp
  · simp

/-- Finding: asking for the steps after every `update` matters.  Two calls of `update` with one request for the steps after
both lose the step that the first call brought. -/
theorem C102_missed :
    (∃ s outs len, pedoRun [.batch [acc 1000 0, acc 1050 0, acc 1100 0, acc 1300 10], .steps, .batch [acc 1350 0], .steps] =
      some (s, outs) ∧ (⟨1300, len⟩ : Step) ∈ outs.flatten) ∧
    ∃ s outs, pedoRun [.batch [acc 1000 0, acc 1050 0, acc 1100 0, acc 1300 10], .batch [acc 1350 0], .steps] = some (s, outs) ∧
      outs.flatten = [] := by
  constructor
  · obtain ⟨s, outs, h1, -, h3⟩ := groups_run [[acc 1000 0, acc 1050 0, acc 1100 0, acc 1300 10], [acc 1350 0]] dense5
    obtain ⟨len, hlen⟩ := found5
    refine ⟨s, outs, len, h1, ?_⟩
    rw [h3]
    change _ ∈ found (magsFrom [] [acc 1000 0, acc 1050 0, acc 1100 0, acc 1300 10, acc 1350 0]) 4
    unfold found
    rw [hlen]
    dsimp only
    split
    · split_ifs <;> simp
    · simp
  · have hH : Hist [] {} := ⟨⟨[], rfl, by simp⟩, ⟨[], rfl, by simp⟩⟩
    obtain ⟨s1, p1, p2, p3, -⟩ := hist_pushes (hist_size hH 1) [acc 1000 0, acc 1050 0, acc 1100 0, acc 1300 10]
      (by simp [Ordered, acc_ts]) (by simp [acc_ts])
    have hl1 : s1.mags.length = 4 := by rw [p3]; simp [magsFrom_length]
    obtain ⟨s2, q1, -, q3, q4⟩ := hist_pushes (hist_size p2 4) [acc 1350 0] (by simp [Ordered, acc_ts]) (by simp [acc_ts])
    have hu1 : updateBatch {} [acc 1000 0, acc 1050 0, acc 1100 0, acc 1300 10] = some s1 := p1
    have hu2 : updateBatch s1 [acc 1350 0] = some s2 := by
      unfold updateBatch
      rw [hl1]
      exact q1
    obtain ⟨s', outs', r1, -, r3, r4⟩ := run_inv [.batch [acc 1000 0, acc 1050 0, acc 1100 0, acc 1300 10], .batch [acc 1350 0]]
    have hr : pedoRun [.batch [acc 1000 0, acc 1050 0, acc 1100 0, acc 1300 10], .batch [acc 1350 0]] = some (s2, [[], []]) := by
      simp [pedoRun, pedoRecord, pedoStep, hu1, hu2, List.foldlM]
    rw [hr] at r1
    cases r1
    have hm : s2.mags = magsFrom [] [acc 1000 0, acc 1050 0, acc 1100 0, acc 1300 10, acc 1350 0] := by
      rw [q3, p3]
      rfl
    have hl2 : s2.mags.length = 5 := by rw [hm, magsFrom_length]; rfl
    have hsz : s2.magSize = 4 := q4
    have hcalc : ∃ s3, calculateSteps s2 = some (s3, []) := by
      obtain ⟨s3, new, c1, -⟩ := inv_steps r3 r4
      refine ⟨s3, ?_⟩
      rw [c1]
      unfold calculateSteps at c1
      rw [if_neg (by omega), hl2, hsz] at c1
      rcases stepBody_spec (timeBetweenSteps s2.times) (between_pos _) 3 s2 [] r3.idle (by omega) with ⟨hc, -⟩ | ⟨-, hb⟩
      · exfalso
        have h3 : s2.mags[3]'(by omega) = ⟨1300, 5⟩ := by
          have : s2.mags[3]? = some ⟨1300, 5⟩ := by rw [hm, mags5]; rfl
          rw [List.getElem?_eq_getElem (by omega)] at this
          exact Option.some.inj this
        rw [h3] at hc
        have := hc.1
        unfold MINIMAL_THRESHOLD_VALUE at this
        norm_num at this
      · simp only [stepLoop, hb, Option.bind_some, show 5 - 4 = 1 from rfl] at c1
        cases hp : popOld Magnitude.ts (2 * UPDATE_TIME_INTERVAL_MS) s2.mags with
        | none => rw [hp] at c1; simp at c1
        | some x =>
          rw [hp] at c1
          simp only [Option.some.injEq, Prod.mk.injEq] at c1
          rw [← c1.2]
    obtain ⟨s3, h3⟩ := hcalc
    refine ⟨s3, [[], [], []], ?_, rfl⟩
    simp [pedoRun, pedoRecord, pedoStep, hu1, hu2, h3, List.foldlM]

theorem gv2 : filteredValue [acc 1000 0] (acc 1250 0) = 0 := by
  simp [filteredValue, within, meanMagn, acc_ts, magnitude_acc]

theorem gv3 : filteredValue [acc 1000 0, acc 1250 0] (acc 1500 10) = 10 / 3 := by
  have h10 : magnitude (acc 1500 10).data.values = 10 := magnitude_acc 1500 10 (by norm_num)
  simp [filteredValue, within, meanMagn, acc_ts, magnitude_acc, h10]
  norm_num

/-- Finding: at the start the grouping does matter.  A step with the third sample is reported if four samples come together,
and lost if they come one at a time. -/
theorem C102_start :
    (∃ s outs len, pedoRun (groupOps [[acc 1000 0, acc 1250 0, acc 1500 10, acc 1750 0]]) = some (s, outs) ∧
      (⟨1500, len⟩ : Step) ∈ outs.flatten) ∧
    ∃ s outs, pedoRun (groupOps [[acc 1000 0], [acc 1250 0], [acc 1500 10], [acc 1750 0]]) = some (s, outs) ∧
      outs.flatten = [] := by
  constructor
  · have hH : Hist [] {} := ⟨⟨[], rfl, by simp⟩, ⟨[], rfl, by simp⟩⟩
    obtain ⟨s1, p1, p2, p3, p4⟩ := hist_pushes (hist_size hH 1) [acc 1000 0, acc 1250 0, acc 1500 10, acc 1750 0]
      (by simp [Ordered, acc_ts]) (by simp [acc_ts])
    have hu1 : updateBatch {} [acc 1000 0, acc 1250 0, acc 1500 10, acc 1750 0] = some s1 := p1
    obtain ⟨s', outs', r1, -, r3, r4⟩ := run_inv [.batch [acc 1000 0, acc 1250 0, acc 1500 10, acc 1750 0]]
    have hr : pedoRun [.batch [acc 1000 0, acc 1250 0, acc 1500 10, acc 1750 0]] = some (s1, [[]]) := by
      simp [pedoRun, pedoRecord, pedoStep, hu1, List.foldlM]
    rw [hr] at r1
    cases r1
    have hm : s1.mags = magsFrom [] [acc 1000 0, acc 1250 0, acc 1500 10, acc 1750 0] := p3
    have hl : s1.mags.length = 4 := by rw [hm, magsFrom_length]; rfl
    have hsz : s1.magSize = 1 := p4
    obtain ⟨s3, new, g1, g2⟩ := found_loop (timeBetweenSteps s1.times) (between_pos _) [] 3 0 s1 [] [] r3.idle
      (by rw [r3.last]; rfl) (by omega) (by simp) rfl
    obtain ⟨s4, new', c1, -⟩ := inv_steps r3 r4
    have hnew : new' = new := by
      unfold calculateSteps at c1
      rw [if_neg (by omega), hl, hsz, show 4 - 1 = 3 from rfl, g1] at c1
      dsimp only at c1
      cases hp : popOld Magnitude.ts (2 * UPDATE_TIME_INTERVAL_MS) s3.mags with
      | none => rw [hp] at c1; simp at c1
      | some x =>
        rw [hp] at c1
        simp only [List.nil_append, Option.some.injEq, Prod.mk.injEq] at c1
        exact c1.2.symm
    have h2 : ∃ len, (⟨1500, len⟩ : Step) ∈ found s1.mags 3 := by
      have e0 : found s1.mags 0 = [] := rfl
      have e1 : found s1.mags 1 = [] := by
        unfold found
        rw [e0, hm]
        simp only [magsFrom, List.nil_append, List.cons_append, List.getElem?_cons_succ, List.getElem?_cons_zero, gv2]
        rw [if_neg]
        · rintro ⟨-, h, -⟩
          unfold MINIMAL_THRESHOLD_VALUE at h
          norm_num at h
      have e2 : ∃ len, found s1.mags 2 = [⟨1500, len⟩] := by
        unfold found
        rw [e1, hm]
        simp only [magsFrom, List.nil_append, List.cons_append, List.getElem?_cons_succ, List.getElem?_cons_zero, gv2, gv3,
          acc_ts]
        rw [if_pos]
        · exact ⟨_, rfl⟩
        · refine ⟨?_, ?_, ?_⟩
          · unfold MINIMAL_THRESHOLD_VALUE; norm_num
          · unfold MINIMAL_THRESHOLD_VALUE; norm_num
          · decide
      obtain ⟨len, e2⟩ := e2
      refine ⟨len, ?_⟩
      unfold found
      rw [e2]
      dsimp only
      split
      · split_ifs <;> simp
      · simp
    obtain ⟨len, hlen⟩ := h2
    refine ⟨s4, [[], new'], len, ?_, ?_⟩
    · simp [groupOps, pedoRun, pedoRecord, pedoStep, hu1, c1, List.foldlM]
    · have g2 : new = found s1.mags 3 := g2
      rw [hnew, g2]
      simpa using hlen
  · have hA : accelOf [acc 1000 0, acc 1250 0, acc 1500 10] = [] ++ [acc 1000 0, acc 1250 0, acc 1500 10] := by
      simp [accelOf, acc]
    obtain ⟨s, outs, h1, -⟩ := C53_safe (fusionOps [acc 1000 0, acc 1250 0, acc 1500 10])
    obtain ⟨s', o, h2, h3, -⟩ := C77_detect [acc 1000 0, acc 1250 0, acc 1500 10] (acc 1750 0) _ _ _ _ hA rfl
      (by rw [hA]; simp [Ordered, acc]) (by rw [hA]; simp [acc]) (by simp [acc]) s outs h1
    have ho : o = [] := by
      by_contra hne
      have := (h3.mp hne).1
      rw [List.nil_append, gv3] at this
      unfold threshold at this
      norm_num at this
    have hrun : pedoRun (groupOps [[acc 1000 0], [acc 1250 0], [acc 1500 10], [acc 1750 0]]) = some (s', outs ++ [[], o]) := by
      rw [← h2, run_versions]
      rfl
    refine ⟨s', _, hrun, ?_⟩
    have := short_run _ s outs (by simp) h1
    simp [this, ho]

end Verif.Pedo
