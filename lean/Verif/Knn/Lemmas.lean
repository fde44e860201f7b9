import Verif.Knn.Spec
import Verif.Levels.Props

/-!
# Lemmas about the KNN model
-/

namespace Verif.Knn

open Verif.Levels

theorem find?_filterMap {κ ν μ : Type*} [LinearOrder κ] (P : ν → Prop) [DecidablePred P] (f : ν → μ)
    (m : List (κ × ν)) (hs : StdMap.Sorted m) (k : κ) :
    StdMap.find? (m.filterMap (fun p => if P p.2 then none else some (p.1, f p.2))) k =
      (StdMap.find? m k).bind (fun v => if P v then none else some (f v)) := by
  induction m with
  | nil => rfl
  | cons a m ih =>
    obtain ⟨k', v⟩ := a
    have hs' : StdMap.Sorted m := (List.pairwise_cons.mp hs).2
    have hnone : ∀ k'' , k'' = k' → StdMap.find? m k'' = none := by
      rintro _ rfl
      by_contra h
      obtain ⟨w, hw⟩ := Option.ne_none_iff_exists'.mp h
      have := (List.pairwise_cons.mp hs).1 _ (StdMap.mem_of_find? hw)
      exact lt_irrefl _ this
    have ih := ih hs'
    rw [List.filterMap_cons]
    by_cases hP : P v
    · simp only [hP, if_true]
      rw [ih]
      by_cases hk : k' = k
      · rw [hnone k hk.symm]; simp [StdMap.find?, hk, hP]
      · simp [StdMap.find?, hk]
    · simp only [hP, if_false]
      by_cases hk : k' = k
      · simp [StdMap.find?, hk, hP]
      · simp [StdMap.find?, hk, ih]

theorem find?_map {κ ν μ : Type*} [LinearOrder κ] (f : ν → μ) (m : List (κ × ν)) (k : κ) :
    StdMap.find? (m.map (fun p => (p.1, f p.2))) k = (StdMap.find? m k).map f := by
  induction m with
  | nil => rfl
  | cons a m ih =>
    obtain ⟨k', v⟩ := a
    by_cases hk : k' = k
    · simp [StdMap.find?, hk]
    · simp [StdMap.find?, hk, ih]

/-! ## grouping -/

theorem addStat_fold (L : List (String × SigStat)) (st : List (String × List SigStat)) (rp : String)
    (hst : StdMap.Sorted st ∧ ∀ k v, StdMap.find? st k = some v → v ≠ []) :
    let r := L.foldl (fun st p => addStat st p.1 p.2) st
    (StdMap.find? r rp).getD [] = (StdMap.find? st rp).getD [] ++ (L.filter (fun p => p.1 == rp)).map Prod.snd ∧
    StdMap.Sorted r ∧ ∀ k v, StdMap.find? r k = some v → v ≠ [] := by
  induction L generalizing st with
  | nil => simpa using hst
  | cons p L ih =>
    intro r
    have hst' : StdMap.Sorted (addStat st p.1 p.2) ∧ ∀ k v, StdMap.find? (addStat st p.1 p.2) k = some v → v ≠ [] := by
      refine ⟨StdMap.set_sorted _ _ _ hst.1, ?_⟩
      intro k v hv
      unfold addStat at hv
      rw [StdMap.find?_set] at hv
      split_ifs at hv with h
      · simp only [Option.some.injEq] at hv; rw [← hv]; simp
      · exact hst.2 k v hv
    obtain ⟨h1, h2⟩ := ih (addStat st p.1 p.2) hst'
    refine ⟨?_, h2⟩
    show (StdMap.find? (L.foldl _ (addStat st p.1 p.2)) rp).getD [] = _
    rw [h1]
    unfold addStat
    rw [StdMap.find?_set]
    by_cases h : p.1 = rp
    · subst h; simp
    · simp [h]

/-- The statistics the code groups for a match. -/
def Match.toStat (x : Match) : SigStat := ⟨x.m.id, x.m.rssi, x.f.stat.mean⟩

theorem rpStatistics_find (fps : List Fingerprint) (msr : List RadioData) (rp : String) :
    StdMap.find? (rpStatistics fps msr) rp =
      (if matched fps msr rp = [] then none else some ((matched fps msr rp).map Match.toStat)) ∧
    StdMap.Sorted (rpStatistics fps msr) := by
  have hflat : rpStatistics fps msr = (msr.flatMap (fun m => (fps.filter (fun f => f.tx == m.id)).map
      (fun f => (f.rp, (⟨m.id, m.rssi, f.stat.mean⟩ : SigStat))))).foldl (fun st p => addStat st p.1 p.2) [] := by
    unfold rpStatistics
    rw [List.foldl_flatMap]
    congr 1
    funext st m
    rw [List.foldl_map]
  obtain ⟨h1, h2, h3⟩ := addStat_fold (msr.flatMap (fun m => (fps.filter (fun f => f.tx == m.id)).map
      (fun f => (f.rp, (⟨m.id, m.rssi, f.stat.mean⟩ : SigStat))))) [] rp ⟨List.Pairwise.nil, by simp⟩
  rw [← hflat] at h1 h2 h3
  refine ⟨?_, h2⟩
  have hm : (((msr.flatMap (fun m => (fps.filter (fun f => f.tx == m.id)).map
      (fun f => (f.rp, (⟨m.id, m.rssi, f.stat.mean⟩ : SigStat))))).filter (fun p => p.1 == rp)).map Prod.snd) =
      (matched fps msr rp).map Match.toStat := by
    unfold matched
    rw [List.filter_flatMap, List.map_flatMap, List.map_flatMap]
    congr 1
    funext m
    rw [List.filter_map, List.map_map, List.map_map, List.filter_filter]
    simp only [Function.comp_def]
    congr 1
    congr 1
    funext f
    exact Bool.and_comm _ _
  rw [hm] at h1
  simp only [StdMap.find?_nil, Option.getD_none, List.nil_append] at h1
  cases hf : StdMap.find? (rpStatistics fps msr) rp with
  | none =>
    rw [hf] at h1
    simp only [Option.getD_none] at h1
    have : matched fps msr rp = [] := by simpa using h1.symm
    rw [if_pos this]
  | some v =>
    have hv := h3 rp v hf
    rw [hf] at h1
    simp only [Option.getD_some] at h1
    have : matched fps msr rp ≠ [] := by
      intro h; rw [h] at h1; exact hv (by simpa using h1)
    rw [if_neg this, h1]

/-! ## transmitter shares -/

theorem trust_eq (m : RadioData) : trust m = trustSpec m := by
  unfold trust trustSpec
  simp only
  rw [divide_pos (Real.rpow_pos_of_pos (Real.rpow_pos_of_pos (by norm_num) _) _)]
  rw [← Real.rpow_mul (by norm_num), one_div, ← Real.rpow_neg (by norm_num)]
  congr 1; ring

theorem trustSpec_pos (m : RadioData) : 0 < trustSpec m := Real.rpow_pos_of_pos (by norm_num) _

theorem weights_fold (msr : List RadioData) (id : String) :
    let r := msr.foldl (fun (a : List (String × ℝ) × ℝ) m => (StdMap.set a.1 m.id (trust m), a.2 + trust m)) ([], 0)
    StdMap.find? r.1 id = (msr.reverse.find? (fun m => m.id == id)).map trustSpec ∧
    r.2 = (msr.map trustSpec).sum := by
  induction msr using List.reverseRecOn with
  | nil => simp
  | append_singleton l m ih =>
    simp only [List.foldl_append, List.foldl_cons, List.foldl_nil] at ih ⊢
    obtain ⟨h1, h2⟩ := ih
    rw [h2, StdMap.find?_set, h1, trust_eq]
    constructor
    · rw [List.reverse_append, List.reverse_singleton, List.singleton_append, List.find?_cons]
      by_cases h : m.id = id
      · simp [h]
      · have h1 : (m.id == id) = false := by simpa using h
        have h2 : ¬ id = m.id := fun h' => h h'.symm
        simp [h1, h]
    · simp

theorem weightOf_eq (msr : List RadioData) (id : String) :
    weightOf (calcTransmittersWeights msr) id = share msr id := by
  obtain ⟨h1, h2⟩ := weights_fold msr id
  unfold weightOf calcTransmittersWeights share
  simp only at *
  rw [h2, find?_map (fun v => v ÷ (msr.map trustSpec).sum), h1]
  cases hf : msr.reverse.find? (fun m => m.id == id) with
  | none => simp
  | some m =>
    have hm : m ∈ msr := by simpa using List.mem_of_find?_eq_some hf
    simp only [Option.map_some, Option.getD_some]
    apply divide_pos
    apply List.sum_pos
    · intro x hx
      obtain ⟨y, -, rfl⟩ := List.mem_map.mp hx
      exact trustSpec_pos y
    · intro h0
      rw [List.map_eq_nil_iff] at h0
      rw [h0] at hm
      simp at hm

theorem share_pos (msr : List RadioData) (id : String) (h : ∃ m ∈ msr, m.id = id) : 0 < share msr id := by
  unfold share
  cases hf : msr.reverse.find? (fun m => m.id == id) with
  | none =>
    rw [List.find?_eq_none] at hf
    obtain ⟨m, hm, h1⟩ := h
    exact absurd (by simpa using h1) (hf m (by simpa using hm))
  | some m =>
    simp only
    apply div_pos (trustSpec_pos m)
    have hne : msr ≠ [] := by rintro rfl; simp at h
    cases msr with
    | nil => exact absurd rfl hne
    | cons a l =>
      rw [List.map_cons, List.sum_cons]
      have : 0 ≤ (l.map trustSpec).sum := by
        apply List.sum_nonneg
        intro x hx
        obtain ⟨y, -, rfl⟩ := List.mem_map.mp hx
        exact (trustSpec_pos y).le
      have := trustSpec_pos a
      linarith

/-! ## accumulating -/

theorem accInner_eq (w : List (String × ℝ)) (a : SigStat) (before : List SigStat) (acc : ℝ × ℝ) :
    accInner w a before acc =
      (acc.1 + (before.map (fun b => max (|(a.database - b.database) - (a.measured - b.measured)| *
          (weightOf w a.txId * weightOf w b.txId)) (1 / 1000000))).sum,
       acc.2 + (before.map (fun b => weightOf w a.txId * weightOf w b.txId)).sum) := by
  unfold accInner
  induction before generalizing acc with
  | nil => simp
  | cons b l ih => rw [List.foldl_cons, ih]; simp [add_assoc]

theorem laterEarlier_snoc_sum {α : Type} (l : List α) (a : α) (f : α × α → ℝ) :
    ((laterEarlier (l ++ [a])).map f).sum = ((laterEarlier l).map f).sum + (l.map (fun b => f (a, b))).sum := by
  induction l with
  | nil => simp [laterEarlier]
  | cons b l ih =>
    simp only [List.cons_append, laterEarlier, List.map_append, List.sum_append, ih, List.map_map, List.map_cons,
      List.map_nil, List.sum_cons, List.sum_nil, Function.comp_def]
    ring

theorem accOuter_diff (w : List (String × ℝ)) (before rest : List SigStat) (acc : ℝ × ℝ)
    (h : acc = (((laterEarlier before).map (fun p => max (|(p.1.database - p.2.database) - (p.1.measured - p.2.measured)| *
          (weightOf w p.1.txId * weightOf w p.2.txId)) (1 / 1000000))).sum,
        ((laterEarlier before).map (fun p => weightOf w p.1.txId * weightOf w p.2.txId)).sum)) :
    accOuter w true before rest acc =
      (((laterEarlier (before ++ rest)).map (fun p => max (|(p.1.database - p.2.database) - (p.1.measured - p.2.measured)| *
          (weightOf w p.1.txId * weightOf w p.2.txId)) (1 / 1000000))).sum,
        ((laterEarlier (before ++ rest)).map (fun p => weightOf w p.1.txId * weightOf w p.2.txId)).sum) := by
  induction rest generalizing before acc with
  | nil => rw [List.append_nil, accOuter]; exact h
  | cons a rest ih =>
    rw [accOuter]
    simp only [if_true]
    rw [ih (before ++ [a])]
    · simp
    · rw [accInner_eq, h, laterEarlier_snoc_sum, laterEarlier_snoc_sum]

theorem accOuter_abs (w : List (String × ℝ)) (before rest : List SigStat) (acc : ℝ × ℝ) :
    accOuter w false before rest acc =
      (acc.1 + (rest.map (fun a => max (|a.database + a.measured| * weightOf w a.txId) (1 / 1000000))).sum,
       acc.2 + (rest.map (fun a => weightOf w a.txId)).sum) := by
  induction rest generalizing before acc with
  | nil => simp [accOuter]
  | cons a rest ih => rw [accOuter, ih]; simp [add_assoc]

theorem laterEarlier_map {α β : Type} (g : α → β) (l : List α) :
    laterEarlier (l.map g) = (laterEarlier l).map (fun p => (g p.1, g p.2)) := by
  induction l with
  | nil => rfl
  | cons a l ih => simp [laterEarlier, ih, Function.comp_def]

theorem sum_ge_of_mem (l : List ℝ) (c : ℝ) (hc : 0 ≤ c) (h : ∀ x ∈ l, c ≤ x) (hne : l ≠ []) : c ≤ l.sum := by
  cases l with
  | nil => exact absurd rfl hne
  | cons a l =>
    rw [List.sum_cons]
    have h1 := h a List.mem_cons_self
    have h2 : 0 ≤ l.sum := List.sum_nonneg (fun x hx => hc.trans (h x (List.mem_cons_of_mem _ hx)))
    linarith

theorem finish_eq (n : ℕ) (S N : ℝ) (hS : 1 / 1000000 ≤ S) (hn : 3 ≤ n) : finishWeight n (S, N) = combine n S N := by
  unfold finishWeight combine
  have h1 : S > 1 / 100000000 := by norm_num at hS ⊢; linarith
  have hS' : 0 < S := lt_trans (by norm_num) h1
  have hn' : (0 : ℝ) < n := by exact_mod_cast (by omega : 0 < n)
  have hw : (if N > 1 / 100000000 then S ÷ N else S) = if N > 1 / 100000000 then S / N else S := by
    split_ifs with h
    · exact divide_pos (lt_trans (by norm_num) h)
    · rfl
  have hp : 0 < if N > 1 / 100000000 then S / N else S := by
    split_ifs with h
    · exact div_pos hS' (lt_trans (by norm_num) h)
    · exact hS'
  simp only [h1, if_true]
  rw [if_pos (by omega : n > 0), hw, root_eq hp.le, divide_pos hn', divide_pos (div_pos (Real.sqrt_pos.mpr hp) hn'), one_div_div]

theorem combine_pos (n : ℕ) (S N : ℝ) (hS : 1 / 1000000 ≤ S) (hn : 3 ≤ n) : 0 < combine n S N := by
  unfold combine
  have hS' : 0 < S := lt_of_lt_of_le (by norm_num) hS
  apply div_pos (by exact_mod_cast (by omega : 0 < n))
  apply Real.sqrt_pos.mpr
  split_ifs with h
  · exact div_pos hS' (lt_trans (by norm_num) h)
  · exact hS'

theorem laterEarlier_ne_nil {α : Type} (l : List α) (h : 2 ≤ l.length) : laterEarlier l ≠ [] := by
  rcases l with _ | ⟨a, _ | ⟨b, l⟩⟩
  · simp at h
  · simp at h
  · simp [laterEarlier]

/-- The weights in closed form. -/
theorem rpWeights_find (fps : List Fingerprint) (msr : List RadioData) (d : Bool) (rp : String) :
    StdMap.find? (calcRpWeightsKnn fps msr d) rp =
      if (matched fps msr rp).length < 3 then none
      else some (if d then diffWeight msr (matched fps msr rp) else absWeight msr (matched fps msr rp)) := by
  obtain ⟨h1, h2⟩ := rpStatistics_find fps msr rp
  unfold calcRpWeightsKnn
  simp only
  rw [find?_filterMap (fun v : List SigStat => v.length < 3)
    (fun v => finishWeight v.length (accOuter (calcTransmittersWeights msr) d [] v (0, 0))) _ h2, h1]
  by_cases hm : matched fps msr rp = []
  · simp [hm]
  · rw [if_neg hm]
    simp only [Option.bind_some, List.length_map]
    by_cases h3 : (matched fps msr rp).length < 3
    · simp [h3]
    · rw [if_neg h3, if_neg h3]
      congr 1
      set M := matched fps msr rp with hM
      cases d with
      | true =>
        rw [accOuter_diff _ _ _ _ (by simp [laterEarlier])]
        simp only [List.nil_append, laterEarlier_map, List.map_map, Function.comp_def, Match.toStat, weightOf_eq, if_true]
        rw [finish_eq]
        · rfl
        · apply sum_ge_of_mem
          · norm_num
          · intro x hx
            obtain ⟨p, -, rfl⟩ := List.mem_map.mp hx
            exact le_max_right _ _
          · simpa using laterEarlier_ne_nil M (by omega)
        · omega
      | false =>
        rw [accOuter_abs]
        simp only [List.map_map, Function.comp_def, Match.toStat, weightOf_eq, zero_add, Bool.false_eq_true, if_false]
        rw [finish_eq]
        · rfl
        · apply sum_ge_of_mem
          · norm_num
          · intro x hx
            obtain ⟨p, -, rfl⟩ := List.mem_map.mp hx
            exact le_max_right _ _
          · simpa using hm
        · omega

theorem weights_pos (msr : List RadioData) (M : List Match) (h : 3 ≤ M.length) :
    0 < diffWeight msr M ∧ 0 < absWeight msr M := by
  constructor
  · apply combine_pos _ _ _ _ h
    apply sum_ge_of_mem
    · norm_num
    · intro x hx
      obtain ⟨p, -, rfl⟩ := List.mem_map.mp hx
      exact le_max_right _ _
    · simpa using laterEarlier_ne_nil M (by omega)
  · apply combine_pos _ _ _ _ h
    apply sum_ge_of_mem
    · norm_num
    · intro x hx
      obtain ⟨p, -, rfl⟩ := List.mem_map.mp hx
      exact le_max_right _ _
    · intro h'; rw [List.map_eq_nil_iff] at h'; subst h'; simp at h

end Verif.Knn
