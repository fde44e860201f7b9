import Verif.LevelEst.HistoryLemmas

/-!
# C24: hysteresis of the level history

`reported ds` is the level returned after the detections `ds` (`""`: no level detected).
-/

namespace Verif.LevelEst

/-- **C24.** Nothing is reported until a level is detected; afterwards the reported level is one of
the detected ones. -/
theorem C24_detected (ds : List String) :
    (reported ds = "" ↔ ∀ d ∈ ds, d = "") ∧ (reported ds ≠ "" → reported ds ∈ ds) := by
  rw [reported_eq]
  rcases history_inv ds with ⟨h1, -, -⟩ | ⟨pre, w, h1, -, h3, h4, -⟩
  · rw [h1]
    cases hf : ds.find? (fun y => decide (y ≠ "")) with
    | none =>
      rw [List.find?_eq_none] at hf
      simpa using hf
    | some x =>
      have hx := List.find?_some hf
      have hm := List.mem_of_find?_eq_some hf
      simp only [decide_eq_true_eq] at hx
      simp only [Option.getD_some]
      exact ⟨⟨fun h => absurd h hx, fun h => h x hm⟩, fun _ => hm⟩
  · have hmem : (runHistory ds).current ∈ ds := by
      have := List.mem_of_getLast? h4
      have := (List.mem_filter.mp this).1
      have h' := List.mem_append_left w this
      rwa [← h1] at h'
    exact ⟨⟨fun h => absurd h h3, fun h => h _ hmem⟩, fun _ => hmem⟩

/-- **C24.** The first detected level is reported at once; an empty detection never changes the
report. -/
theorem C24_first (ds : List String) (d : String) :
    (reported ds = "" → reported (ds ++ [d]) = d) ∧ (d = "" → reported (ds ++ [d]) = reported ds) := by
  constructor
  · intro h
    have hall := (C24_detected ds).1.mp h
    by_cases hd : d = ""
    · rw [hd]; rw [(C24_detected _).1]
      intro x hx
      rcases List.mem_append.mp hx with hx | hx
      · exact hall x hx
      · exact List.mem_singleton.mp hx
    · have hne : reported (ds ++ [d]) ≠ "" := by
        rw [ne_eq, (C24_detected _).1]
        intro hx; exact hd (hx d (by simp))
      rcases List.mem_append.mp ((C24_detected _).2 hne) with hx | hx
      · exact absurd (hall _ hx) hne
      · exact List.mem_singleton.mp hx
  · intro hd
    rw [reported_eq, reported_eq, runHistory_snoc, hd]
    simp [detectLevelUsingHistory]

/-- **C24.** The report changes from one level to another only to the level just detected, when this
is its fifth detection in a window in which no level was detected more than four times before; the
window is the whole history, or starts after the last detection of the old level. -/
theorem C24_change (ds : List String) (d : String) (hold : reported ds ≠ "")
    (hch : reported (ds ++ [d]) ≠ reported ds) :
    reported (ds ++ [d]) = d ∧ d ≠ "" ∧
    ∃ pre w, ds = pre ++ w ∧ w.count d = 4 ∧ (∀ y, y ≠ "" → w.count y ≤ 4) ∧
      (pre = [] ∨ ((pre.filter (fun y => y ≠ "")).getLast? = some (reported ds) ∧ reported ds ∉ w)) := by
  have hd : d ≠ "" := fun h => hch ((C24_first ds d).2 h)
  rw [reported_eq, reported_eq, runHistory_snoc] at hch
  rw [reported_eq] at hold
  rw [reported_eq, reported_eq, runHistory_snoc]
  have hinv := history_inv ds
  set h := runHistory ds
  have hinit : h.isInitialized = true := by
    rcases hinv with ⟨h1, h2, -⟩ | ⟨_, _, -, h2, -⟩
    · rw [h2, List.any_eq_true]
      rw [h1] at hold
      cases hf : ds.find? (fun y => decide (y ≠ "")) with
      | none => rw [hf] at hold; simp at hold
      | some x => exact ⟨x, List.mem_of_find?_eq_some hf, List.find?_some (p := fun y => decide (y ≠ "")) hf⟩
    · exact h2
  have hstep : (detectLevelUsingHistory h d).2.current = if countAt h.floorCnt d + 1 > 4 then d else h.current := by
    unfold detectLevelUsingHistory
    rw [if_neg hd]
    simp only [hinit, if_true, maxLevelIdOccur]
    split_ifs <;> rfl
  rw [hstep] at hch ⊢
  by_cases hgt : countAt h.floorCnt d + 1 > 4
  · rw [if_pos hgt] at hch ⊢
    refine ⟨rfl, hd, ?_⟩
    rcases hinv with ⟨-, -, h3⟩ | ⟨pre, w, h1, -, -, h4, h5, -, h7, h8, -⟩
    · refine ⟨[], ds, rfl, ?_, fun y hy => (h3 y hy).2, .inl rfl⟩
      have := h3 d hd
      omega
    · refine ⟨pre, w, h1, ?_, h8, .inr ⟨h4, h5⟩⟩
      have h7' := h7 d hd hch
      have h8' := h8 d hd
      omega
  · rw [if_neg hgt] at hch
    exact absurd rfl hch

/-- **C24.** Five consecutive detections of a level (empty detections in between do not count)
always make it the reported level. -/
theorem C24_five (ds w : List String) (x : String) (hx : x ≠ "") (hw : ∀ y ∈ w, y = x ∨ y = "")
    (h5 : 5 ≤ w.count x) : reported (ds ++ w) = x := by
  rw [reported_eq]
  rcases history_inv (ds ++ w) with ⟨-, -, h3⟩ | ⟨pre, w', h1, -, h3, h4, h6, -, -, h8, -⟩
  · have := (h3 x hx).2
    rw [List.count_append] at this
    omega
  · rw [List.append_eq_append_iff] at h1
    rcases h1 with ⟨w1, hpre, hw'⟩ | ⟨w1, hds, hw1⟩
    · -- w = w1 ++ w', pre = ds ++ w1
      rw [hpre, List.filter_append, List.getLast?_append] at h4
      have hw1x : w1.count x ≥ 1 := by
        have := h8 x hx
        rw [hw', List.count_append] at h5
        omega
      have hne : w1.filter (fun y => decide (y ≠ "")) ≠ [] := by
        intro h0
        have hm : x ∈ w1 := List.count_pos_iff.mp (by omega)
        have : x ∈ w1.filter (fun y => decide (y ≠ "")) := List.mem_filter.mpr ⟨hm, by simpa using hx⟩
        rw [h0] at this; cases this
      obtain ⟨z, hz⟩ : ∃ z, (w1.filter (fun y => decide (y ≠ ""))).getLast? = some z :=
        ⟨_, List.getLast?_eq_some_getLast hne⟩
      rw [hz] at h4
      simp only [Option.some_or, Option.some.injEq] at h4
      have hzm := List.mem_filter.mp (List.mem_of_getLast? hz)
      rcases hw z (by rw [hw']; exact List.mem_append_left _ hzm.1) with h | h
      · rw [← h4, h]
      · simp [h] at hzm
    · -- the window contains all of w
      have := h8 x hx
      rw [hw1, List.count_append] at this
      omega

/-- **C24.** Once some level was detected five times, after a detection of the reported level `L` any
further detections without `L` keep it iff none of them names a level five times. -/
theorem C24_hold (ds w : List String) (hconf : ∃ y, y ≠ "" ∧ 5 ≤ ds.count y) (hL : reported ds ∉ w) :
    reported (ds ++ [reported ds] ++ w) = reported ds ↔ ∀ x, x ≠ "" → w.count x ≤ 4 := by
  have hinv := history_inv ds
  rw [reported_eq] at hL ⊢
  rw [reported_eq]
  set L := (runHistory ds).current with hLdef
  obtain ⟨y, hy, hy5⟩ := hconf
  rcases hinv with ⟨-, -, h3⟩ | ⟨pre, w0, -, h2, h3, -, -, h6, -⟩
  · have := (h3 y hy).2; omega
  constructor
  · intro hrep x hx
    by_contra hgt
    push Not at hgt
    rcases history_inv (ds ++ [L] ++ w) with ⟨-, -, g3⟩ | ⟨pre', w', g1, -, g3, g4, g5, -, -, g8, -⟩
    · have := (g3 x hx).2
      rw [List.count_append] at this
      omega
    · rw [hrep] at g4 g5
      rw [List.append_eq_append_iff] at g1
      rcases g1 with ⟨w1, hpre, hw⟩ | ⟨w1, hds, hw1⟩
      · rw [hpre, List.filter_append, List.getLast?_append] at g4
        have hnil : w1.filter (fun y => decide (y ≠ "")) = [] := by
          by_contra hne
          obtain ⟨z, hz⟩ : ∃ z, (w1.filter (fun y => decide (y ≠ ""))).getLast? = some z :=
            ⟨_, List.getLast?_eq_some_getLast hne⟩
          rw [hz] at g4
          simp only [Option.some_or, Option.some.injEq] at g4
          subst g4
          have hm := (List.mem_filter.mp (List.mem_of_getLast? hz)).1
          exact hL (by rw [hw]; exact List.mem_append_left _ hm)
        have hx0 : w1.count x = 0 := by
          rw [List.count_eq_zero]
          intro hm
          have : x ∈ w1.filter (fun y => decide (y ≠ "")) := List.mem_filter.mpr ⟨hm, by simpa using hx⟩
          rw [hnil] at this; cases this
        have := g8 x hx
        rw [hw, List.count_append] at hgt
        omega
      · have := g8 x hx
        rw [hw1, List.count_append] at this
        omega
  · -- direct induction over w
    have key : ∀ w : List String, L ∉ w → (∀ x, x ≠ "" → w.count x ≤ 4) →
        (runHistory (ds ++ [L] ++ w)).isInitialized = true ∧ (runHistory (ds ++ [L] ++ w)).current = L ∧
        ∀ x, x ≠ "" → x ≠ L → countAt (runHistory (ds ++ [L] ++ w)).floorCnt x = w.count x := by
      intro w
      induction w using List.reverseRecOn with
      | nil =>
        intro _ _
        rw [List.append_nil, runHistory_snoc]
        have : (detectLevelUsingHistory (runHistory ds) L).2 = ⟨L, true, StdMap.set [] L 4⟩ := by
          unfold detectLevelUsingHistory
          rw [if_neg h3]
          simp only [h2, if_true, maxLevelIdOccur, ← hLdef] at h6 ⊢
          rw [h6]
          rfl
        rw [this]
        refine ⟨rfl, rfl, fun x _ hxL => ?_⟩
        simp only [countAt_set]
        rw [if_neg (fun h => hxL h.symm)]
        simp [countAt]
      | append_singleton w d ih =>
        intro hLw hcnt
        have hLw' : L ∉ w := fun h => hLw (List.mem_append_left _ h)
        have hdL : d ≠ L := fun h => hLw (by simp [h])
        have hcnt' : ∀ x, x ≠ "" → w.count x ≤ 4 := fun x hx => by
          have := hcnt x hx; rw [List.count_append] at this; omega
        obtain ⟨i1, i2, i3⟩ := ih hLw' hcnt'
        rw [← List.append_assoc, runHistory_snoc]
        by_cases hd : d = ""
        · have : (detectLevelUsingHistory (runHistory (ds ++ [L] ++ w)) d).2 = runHistory (ds ++ [L] ++ w) := by
            simp [detectLevelUsingHistory, hd]
          rw [this]
          refine ⟨i1, i2, fun x hx hxL => ?_⟩
          rw [i3 x hx hxL, count_snoc, if_neg (by rw [hd]; exact fun h => hx h.symm), add_zero]
        · have hle := hcnt d hd
          rw [count_snoc, if_pos rfl] at hle
          have : (detectLevelUsingHistory (runHistory (ds ++ [L] ++ w)) d).2 =
              ⟨L, true, StdMap.set (runHistory (ds ++ [L] ++ w)).floorCnt d (w.count d + 1)⟩ := by
            unfold detectLevelUsingHistory
            rw [if_neg hd]
            simp only [i1, if_true, maxLevelIdOccur, i3 d hd hdL, i2]
            rw [if_neg (by omega)]
          rw [this]
          refine ⟨rfl, rfl, fun x hx hxL => ?_⟩
          simp only [countAt_set]
          rw [count_snoc]
          by_cases hdx : d = x
          · rw [if_pos hdx, if_pos hdx, hdx]
          · rw [if_neg hdx, if_neg hdx]; exact i3 x hx hxL
    intro hcnt
    exact (key w hL hcnt).2.1

/-- Level "A" confirmed, then four detections of "B" keep it and a fifth switches. -/
example : reported ["A", "A", "A", "A", "A"] = "A" ∧ reported ["A", "A", "A", "A", "A", "B", "B", "", "B", "B"] = "A" ∧
    reported ["A", "A", "A", "A", "A", "B", "B", "", "B", "B", "B"] = "B" := by decide

/-- Before confirmation the first level to be seen five times wins. -/
example : reported ["A", "B", "B", "A", "B", "B", "A"] = "A" ∧ reported ["A", "B", "B", "A", "B", "B", "A", "B"] = "B" := by
  decide

end Verif.LevelEst
