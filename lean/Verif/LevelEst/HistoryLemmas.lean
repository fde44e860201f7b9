import Verif.LevelEst.Model
import Mathlib.Data.List.Count

/-! # The level history as a function of the detections; its invariant -/

namespace Verif.LevelEst

/-- The history object after a sequence of calls with these detected levels. -/
def runHistory (ds : List String) : History := ds.foldl (fun h d => (detectLevelUsingHistory h d).2) .init

/-- The level returned by the last of these calls (`""` before any call). -/
def reported (ds : List String) : String :=
  match ds.getLast? with
  | none => ""
  | some d => (detectLevelUsingHistory (runHistory ds.dropLast) d).1

theorem runHistory_snoc (ds : List String) (d : String) :
    runHistory (ds ++ [d]) = (detectLevelUsingHistory (runHistory ds) d).2 := by simp [runHistory]

theorem detect_fst (h : History) (d : String) :
    (detectLevelUsingHistory h d).1 = (detectLevelUsingHistory h d).2.current := by
  unfold detectLevelUsingHistory; split_ifs <;> rfl

theorem reported_eq (ds : List String) : reported ds = (runHistory ds).current := by
  induction ds using List.reverseRecOn with
  | nil => rfl
  | append_singleton ds d ih =>
    unfold reported
    rw [List.getLast?_append]
    simp only [List.getLast?_singleton, Option.some_or, List.dropLast_concat]
    rw [detect_fst, runHistory_snoc]

/-- No level was confirmed yet: the counters are plain counts. -/
def Unconfirmed (h : History) (ds : List String) : Prop :=
  h.current = (ds.find? (fun y => y ≠ "")).getD "" ∧ h.isInitialized = ds.any (fun y => y ≠ "") ∧
  ∀ y, y ≠ "" → countAt h.floorCnt y = ds.count y ∧ ds.count y ≤ 4

/-- A level was confirmed: counting restarted at its last detection. -/
def ConfirmedAt (h : History) (ds pre w : List String) : Prop :=
  ds = pre ++ w ∧ h.isInitialized = true ∧ h.current ≠ "" ∧
  (pre.filter (fun y => y ≠ "")).getLast? = some h.current ∧
  h.current ∉ w ∧ countAt h.floorCnt h.current = 4 ∧
  (∀ y, y ≠ "" → y ≠ h.current → countAt h.floorCnt y = w.count y) ∧
  (∀ y, y ≠ "" → w.count y ≤ 4) ∧ ∃ y, y ≠ "" ∧ 5 ≤ ds.count y

theorem countAt_set (m : List (String × ℕ)) (k y : String) (v : ℕ) :
    countAt (StdMap.set m k v) y = if k = y then v else countAt m y := by
  unfold countAt
  rw [StdMap.find?_set]
  split_ifs <;> rfl

theorem count_snoc (ds : List String) (d y : String) :
    (ds ++ [d]).count y = ds.count y + if d = y then 1 else 0 := by
  rw [List.count_append, List.count_singleton]
  by_cases h : d = y <;> simp [h]

theorem history_step_empty (h : History) (ds : List String)
    (hi : Unconfirmed h ds ∨ ∃ pre w, ConfirmedAt h ds pre w) :
    Unconfirmed h (ds ++ [""]) ∨ ∃ pre w, ConfirmedAt h (ds ++ [""]) pre w := by
  have hc : ∀ (l : List String) y, y ≠ "" → (l ++ [""]).count y = l.count y := by
    intro l y hy
    rw [count_snoc, if_neg (fun h => hy h.symm), add_zero]
  rcases hi with ⟨h1, h2, h3⟩ | ⟨pre, w, h1, h2, h3, h4, h5, h6, h7, h8, y, hy, h9⟩
  · left
    refine ⟨?_, ?_, fun y hy => by rw [hc ds y hy]; exact h3 y hy⟩
    · rw [List.find?_append, h1]; cases ds.find? (fun y => y ≠ "") <;> simp
    · rw [List.any_append, h2]; simp
  · right
    refine ⟨pre, w ++ [""], by rw [h1, List.append_assoc], h2, h3, h4, ?_, h6, ?_, ?_, y, hy, ?_⟩
    · simp [h5, h3]
    · intro z hz hz'; rw [hc w z hz]; exact h7 z hz hz'
    · intro z hz; rw [hc w z hz]; exact h8 z hz
    · rw [hc ds y hy]; exact h9

theorem confirmed_fresh (ds : List String) (d : String) (hd : d ≠ "") (hc : ∃ y, y ≠ "" ∧ 5 ≤ (ds ++ [d]).count y)
    (h : History) (hi : h.isInitialized = true) (hcur : h.current = d) (hcnt : h.floorCnt = StdMap.set [] d 4) :
    ConfirmedAt h (ds ++ [d]) (ds ++ [d]) [] := by
  refine ⟨by simp, hi, by rw [hcur]; exact hd, ?_, by simp, ?_, ?_, by simp, hc⟩
  · rw [List.filter_append, hcur]
    simp [hd]
  · rw [hcnt, hcur, countAt_set, if_pos rfl]
  · intro y hy hyc
    rw [hcnt, countAt_set, if_neg (by rw [hcur] at hyc; exact fun h => hyc h.symm)]
    simp [countAt]

/-- Invariant: after any detections the history is unconfirmed or confirmed at its current level. -/
theorem history_inv (ds : List String) :
    Unconfirmed (runHistory ds) ds ∨ ∃ pre w, ConfirmedAt (runHistory ds) ds pre w := by
  induction ds using List.reverseRecOn with
  | nil => left; simp [Unconfirmed, runHistory, History.init, countAt]
  | append_singleton ds d ih =>
    rw [runHistory_snoc]
    by_cases hd : d = ""
    · subst hd
      have : (detectLevelUsingHistory (runHistory ds) "").2 = runHistory ds := by
        simp [detectLevelUsingHistory]
      rw [this]
      exact history_step_empty _ _ ih
    · set h := runHistory ds
      rcases ih with ⟨h1, h2, h3⟩ | ⟨pre, w, h1, h2, h3, h4, h5, h6, h7, h8, y, hy, h9⟩
      · -- unconfirmed
        have hcur : (if h.isInitialized then h else { h with isInitialized := true, current := d }).current =
            ((ds ++ [d]).find? (fun y => y ≠ "")).getD "" := by
          rw [List.find?_append]
          by_cases hi : h.isInitialized = true
          · rw [if_pos hi, h1]
            rw [h2, List.any_eq_true] at hi
            obtain ⟨x, hx, hx'⟩ := hi
            obtain ⟨z, hz⟩ := Option.isSome_iff_exists.mp (List.find?_isSome (p := fun y => decide (y ≠ "")) |>.mpr ⟨x, hx, hx'⟩)
            simp only [hz, Option.getD_some, Option.some_or]
          · rw [if_neg hi]
            have : ds.find? (fun y => decide (y ≠ "")) = none := by
              rw [List.find?_eq_none]
              intro x hx hx'
              exact hi (by rw [h2, List.any_eq_true]; exact ⟨x, hx, hx'⟩)
            rw [this]; simp [hd]
        have hinit : (if h.isInitialized then h else { h with isInitialized := true, current := d }).isInitialized = true := by
          by_cases hi : h.isInitialized = true
          · rw [if_pos hi]; exact hi
          · rw [if_neg hi]
        have hfc : (if h.isInitialized then h else { h with isInitialized := true, current := d }).floorCnt = h.floorCnt := by
          by_cases hi : h.isInitialized = true
          · rw [if_pos hi]
          · rw [if_neg hi]
        unfold detectLevelUsingHistory
        rw [if_neg hd]
        simp only [hfc, (h3 d hd).1, maxLevelIdOccur]
        by_cases hgt : ds.count d + 1 > 4
        · rw [if_pos hgt]
          right
          refine ⟨ds ++ [d], [], confirmed_fresh ds d hd ⟨d, hd, ?_⟩ _ ?_ rfl rfl⟩
          · rw [count_snoc, if_pos rfl]; omega
          · exact hinit
        · rw [if_neg hgt]
          left
          refine ⟨hcur, ?_, ?_⟩
          · simp only [hinit]
            rw [List.any_append]; simp [hd]
          · intro y hy
            simp only [countAt_set]
            rw [count_snoc]
            by_cases hyd : d = y
            · rw [if_pos hyd, if_pos hyd]; subst hyd; exact ⟨rfl, by omega⟩
            · rw [if_neg hyd, if_neg hyd]; exact h3 y hy
      · -- confirmed
        right
        have hcount : ∀ y, y ≠ "" → 5 ≤ ds.count y → 5 ≤ (ds ++ [d]).count y := by
          intro y _ h; rw [count_snoc]; omega
        unfold detectLevelUsingHistory
        rw [if_neg hd]
        simp only [h2, if_true, maxLevelIdOccur]
        by_cases hdc : d = h.current
        · rw [if_pos (by rw [hdc, h6]; omega)]
          exact ⟨ds ++ [d], [], confirmed_fresh ds d hd ⟨y, hy, hcount y hy h9⟩ _ rfl rfl rfl⟩
        · rw [h7 d hd hdc]
          by_cases hgt : w.count d + 1 > 4
          · rw [if_pos hgt]
            exact ⟨ds ++ [d], [], confirmed_fresh ds d hd ⟨y, hy, hcount y hy h9⟩ _ rfl rfl rfl⟩
          · rw [if_neg hgt]
            refine ⟨pre, w ++ [d], by rw [h1, List.append_assoc], rfl, h3, h4, ?_, ?_, ?_, ?_, y, hy, hcount y hy h9⟩
            · simp only [List.mem_append, List.mem_singleton, not_or]
              exact ⟨h5, fun h => hdc h.symm⟩
            · simp only [countAt_set]
              rw [if_neg hdc]; exact h6
            · intro z hz hzc
              simp only [countAt_set]
              rw [count_snoc]
              by_cases hzd : d = z
              · rw [if_pos hzd, if_pos hzd, hzd]
              · rw [if_neg hzd, if_neg hzd]; exact h7 z hz hzc
            · intro z hz
              rw [count_snoc]
              by_cases hzd : d = z
              · rw [if_pos hzd]; subst hzd; omega
              · rw [if_neg hzd]; exact h8 z hz

end Verif.LevelEst
