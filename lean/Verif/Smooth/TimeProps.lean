import Verif.Smooth.AbProps

/-! # Properties of the time smoother (C43) -/

namespace Verif.Smooth

open Verif.Geo (XYPoint)

/-! ## Specification -/

/-- A call: the last known position and the current time. -/
abbrev TimeCall := Position × Int

/-- The object after a history of calls. -/
noncomputable def timeRun (calls : List TimeCall) : TimeState :=
  calls.foldl (fun s c => (timeSmooth s c.1 c.2).2) timeInit

/-- The answer to a call after a history. -/
noncomputable def timeAnswer (calls : List TimeCall) (last : Position) (cur : Int) : Position :=
  (timeSmooth (timeRun calls) last cur).1

/-- The known positions that were not given before their time. -/
def known (calls : List TimeCall) : List Position :=
  (calls.filter (fun c => c.1.ts ≤ c.2)).map Prod.fst

/-- The known positions since the last change of level. -/
def levelRun (l : List Position) : List Position :=
  l.foldl (fun acc p => if acc.getLast?.map Position.levelId = some p.levelId then acc ++ [p] else [p]) []

/-! ## Lemmas -/

theorem timeRun_append (calls : List TimeCall) (c : TimeCall) :
    timeRun (calls ++ [c]) = (timeSmooth (timeRun calls) c.1 c.2).2 := by
  simp [timeRun]

theorem known_append (calls : List TimeCall) (c : TimeCall) :
    known (calls ++ [c]) = if c.1.ts ≤ c.2 then known calls ++ [c.1] else known calls := by
  unfold known
  rw [List.filter_append, List.map_append]
  by_cases h : c.1.ts ≤ c.2 <;> simp [h]

theorem levelRun_append (l : List Position) (p : Position) :
    levelRun (l ++ [p]) = if (levelRun l).getLast?.map Position.levelId = some p.levelId
      then levelRun l ++ [p] else [p] := by
  simp [levelRun]

theorem levelRun_mem (l : List Position) : ∀ p ∈ levelRun l, p ∈ l := by
  induction l using List.reverseRecOn with
  | nil => simp [levelRun]
  | append_singleton l q ih =>
    rw [levelRun_append]
    intro p hp
    split_ifs at hp
    · rcases List.mem_append.mp hp with h | h
      · exact List.mem_append_left _ (ih p h)
      · exact List.mem_append_right _ h
    · exact List.mem_append_right _ hp

theorem levelRun_last (l : List Position) : (levelRun l).getLast? = l.getLast? := by
  induction l using List.reverseRecOn with
  | nil => rfl
  | append_singleton l q ih => rw [levelRun_append]; split_ifs <;> simp

theorem levelRun_level (l : List Position) (q : Position) (hq : l.getLast? = some q) :
    ∀ p ∈ levelRun l, p.levelId = q.levelId := by
  induction l using List.reverseRecOn generalizing q with
  | nil => simp at hq
  | append_singleton l a ih =>
    simp at hq; subst hq
    rw [levelRun_append]
    intro p hp
    split_ifs at hp with h
    · rcases List.mem_append.mp hp with hp | hp
      · rw [levelRun_last] at h
        cases hl : l.getLast? with
        | none => rw [hl] at h; cases h
        | some b =>
          rw [hl] at h; simp at h
          rw [ih b hl p hp, h]
      · simp at hp; rw [hp]
    · simp at hp; rw [hp]

/-- The level of the newest kept position is that of the last known position. -/
theorem time_level (calls : List TimeCall) (q : Position) (hq : (known calls).getLast? = some q) :
    (timeRun calls).next.levelId = q.levelId := by
  induction calls using List.reverseRecOn generalizing q with
  | nil => simp [known] at hq
  | append_singleton calls c ih =>
    rw [known_append] at hq
    rw [timeRun_append]
    unfold timeSmooth
    split_ifs at hq with h
    · simp at hq; subst hq
      rw [if_neg (not_lt.mpr h)]
      dsimp only
      split_ifs with h1 h2 h3
      · rfl
      · rfl
      · rfl
      · push Not at h1
        exact h1.2
    · rw [if_pos (not_le.mp h)]; exact ih q hq

/-! ## C43 -/

/-- **C43.** A level change is reported at once: if the known position before was on another level, the
answer is the new position. -/
theorem C43_level_change (calls : List TimeCall) (last : Position) (cur : Int) (q : Position)
    (hq : (known calls).getLast? = some q) (hne : q.levelId ≠ last.levelId) :
    timeAnswer calls last cur = last := by
  unfold timeAnswer timeSmooth
  have h : (timeRun calls).prev.levelId ≠ last.levelId ∨ (timeRun calls).next.levelId ≠ last.levelId :=
    Or.inr (by rw [time_level calls q hq]; exact hne)
  rw [if_pos h]
  split_ifs <;> rfl

/-- **C43.** The first known position is returned as it is. -/
theorem C43_first (last : Position) (cur : Int) : timeAnswer [] last cur = last := by
  unfold timeAnswer timeSmooth timeRun timeInit
  rw [if_pos (show _ ∨ _ from Or.inl rfl : (List.foldl (fun s (c : TimeCall) => (timeSmooth s c.1 c.2).2)
    ⟨Position.default, Position.default⟩ []).prev.isEmpty = true ∨ _ ∨ _)]
  split_ifs <;> rfl

/-- What the kept positions are. -/
structure TimeInv (run : List Position) (s : TimeState) : Prop where
  prev : s.prev ∈ run
  next : s.next ∈ run
  top : ∀ p ∈ run, p.ts ≤ s.next.ts
  second : ∀ p ∈ run, p.ts < s.next.ts → p.ts ≤ s.prev.ts
  order : s.prev.ts ≤ s.next.ts

theorem time_step (calls : List TimeCall) (last : Position) (cur : Int)
    (hts : last.ts ≤ cur)
    (hempty : ∀ p ∈ known calls, p.isEmpty = false) (he : last.isEmpty = false)
    (hlev : last.levelId ≠ "")
    (hord : ∀ p ∈ known calls, p.ts ≤ last.ts)
    (hinit : known calls = [] → timeRun calls = timeInit)
    (hinv : known calls ≠ [] → TimeInv (levelRun (known calls)) (timeRun calls)) :
    TimeInv (levelRun (known calls ++ [last])) (timeSmooth (timeRun calls) last cur).2 ∧
    (timeAnswer calls last cur = last ∨
      timeAnswer calls last cur = timeInterpolate (timeSmooth (timeRun calls) last cur).2 last cur) ∧
    ((timeSmooth (timeRun calls) last cur).2.next.ts = last.ts) := by
  have fresh : ∀ s : TimeState, s = ⟨last, last⟩ → TimeInv [last] s := by
    rintro s rfl
    exact ⟨by simp, by simp, by simp, by simp, le_rfl⟩
  by_cases hk : known calls = []
  · have hs : timeSmooth (timeRun calls) last cur = (last, ⟨last, last⟩) := by
      rw [hinit hk]
      unfold timeSmooth
      rw [if_neg (not_lt.mpr hts), if_pos (Or.inl (by
        simp only [timeInit, Position.default]; exact hlev.symm))]
    have hr : levelRun (known calls ++ [last]) = [last] := by rw [hk]; simp [levelRun]
    unfold timeAnswer
    rw [hs, hr]
    exact ⟨fresh _ rfl, Or.inl rfl, rfl⟩
  · obtain ⟨q, hq⟩ : ∃ q, (known calls).getLast? = some q :=
      ⟨_, List.getLast?_eq_some_getLast hk⟩
    have hI := hinv hk
    have lv := levelRun_level (known calls) q hq
    by_cases hl : q.levelId = last.levelId
    · have hr : levelRun (known calls ++ [last]) = levelRun (known calls) ++ [last] := by
        rw [levelRun_append, if_pos]
        rw [levelRun_last, hq]; simp [hl]
      have hpe : (timeRun calls).prev.isEmpty = false := hempty _ (levelRun_mem _ _ hI.prev)
      have hne : (timeRun calls).next.isEmpty = false := hempty _ (levelRun_mem _ _ hI.next)
      have hs : timeSmooth (timeRun calls) last cur =
          (timeInterpolate (if last.ts > (timeRun calls).next.ts then ⟨(timeRun calls).next, last⟩
            else timeRun calls) last cur,
          if last.ts > (timeRun calls).next.ts then ⟨(timeRun calls).next, last⟩ else timeRun calls) := by
        unfold timeSmooth
        rw [if_neg (not_lt.mpr hts), if_neg, if_neg]
        · rw [hpe, hne, he]; simp
        · rw [lv _ hI.prev, lv _ hI.next, hl]; simp
      unfold timeAnswer
      rw [hs, hr]
      refine ⟨?_, Or.inr rfl, ?_⟩
      · dsimp only
        by_cases hgt : last.ts > (timeRun calls).next.ts
        · rw [if_pos hgt]
          refine ⟨List.mem_append_left _ hI.next, by simp, ?_, ?_, hgt.le⟩
          · intro p hp
            rcases List.mem_append.mp hp with hp | hp
            · exact (hI.top p hp).trans hgt.le
            · simp at hp; rw [hp]
          · intro p hp hlt
            rcases List.mem_append.mp hp with hp | hp
            · exact hI.top p hp
            · simp at hp; subst hp; exact absurd hlt (lt_irrefl _)
        · rw [if_neg hgt]
          have heq : last.ts = (timeRun calls).next.ts :=
            le_antisymm (not_lt.mp hgt) (hord _ (levelRun_mem _ _ hI.next))
          refine ⟨List.mem_append_left _ hI.prev, List.mem_append_left _ hI.next, ?_, ?_, hI.order⟩
          · intro p hp
            rcases List.mem_append.mp hp with hp | hp
            · exact hI.top p hp
            · simp at hp; rw [hp, heq]
          · intro p hp hlt
            rcases List.mem_append.mp hp with hp | hp
            · exact hI.second p hp hlt
            · simp at hp; subst hp; exact absurd heq hlt.ne
      · dsimp only
        by_cases hgt : last.ts > (timeRun calls).next.ts
        · rw [if_pos hgt]
        · rw [if_neg hgt]
          exact le_antisymm (hord _ (levelRun_mem _ _ hI.next)) (not_lt.mp hgt)
    · have hr : levelRun (known calls ++ [last]) = [last] := by
        rw [levelRun_append, if_neg]
        rw [levelRun_last, hq]; simp [hl]
      have hs : timeSmooth (timeRun calls) last cur = (last, ⟨last, last⟩) := by
        unfold timeSmooth
        rw [if_neg (not_lt.mpr hts), if_pos (Or.inr (by rw [lv _ hI.next]; exact hl))]
      unfold timeAnswer
      rw [hs, hr]
      exact ⟨fresh _ rfl, Or.inl rfl, rfl⟩

theorem time_inv (calls : List TimeCall)
    (hk : ∀ p ∈ known calls, p.isEmpty = false ∧ p.levelId ≠ "")
    (hord : (known calls).Pairwise (fun p q => p.ts ≤ q.ts)) :
    (known calls = [] → timeRun calls = timeInit) ∧
    (known calls ≠ [] → TimeInv (levelRun (known calls)) (timeRun calls)) := by
  induction calls using List.reverseRecOn with
  | nil => exact ⟨fun _ => rfl, fun h => absurd rfl h⟩
  | append_singleton calls c ih =>
    rw [known_append] at hk hord ⊢
    rw [timeRun_append]
    by_cases hc : c.1.ts ≤ c.2
    · rw [if_pos hc] at hk hord ⊢
      rw [List.pairwise_append] at hord
      obtain ⟨i1, i2⟩ := ih (fun p hp => hk p (List.mem_append_left _ hp)) hord.1
      have := time_step calls c.1 c.2 hc (fun p hp => (hk p (List.mem_append_left _ hp)).1)
        (hk c.1 (by simp)).1 (hk c.1 (by simp)).2 (fun p hp => hord.2.2 p hp c.1 (by simp)) i1 i2
      exact ⟨fun h => by simp at h, fun _ => this.1⟩
    · rw [if_neg hc] at hk hord ⊢
      have e : (timeSmooth (timeRun calls) c.1 c.2).2 = timeRun calls := by
        unfold timeSmooth; rw [if_pos (not_le.mp hc)]
      rw [e]
      exact ih hk hord

/-- **C43.** When the known positions (non-empty, on a named level) come in the order of their times, the
answer is the last known position, or a known position of the same level with the same time, or the
point of the segment from the latest known position `p` of this level with an earlier time to a known
position `q` with the time of the last one, at the part of the kept interval that has passed since `q`;
that part is in [0, 1], so that the answer never leaves the segment. -/
theorem C43_segment (calls : List TimeCall) (last : Position) (cur : Int)
    (hk : ∀ p ∈ known calls ++ [last], p.isEmpty = false ∧ p.levelId ≠ "")
    (hord : (known calls ++ [last]).Pairwise (fun p q => p.ts ≤ q.ts)) :
    (timeAnswer calls last cur).levelId = last.levelId ∧
    (timeAnswer calls last cur = last ∨
     (timeAnswer calls last cur ∈ levelRun (known calls ++ [last]) ∧
       (timeAnswer calls last cur).ts = last.ts) ∨
     ∃ p ∈ levelRun (known calls ++ [last]), ∃ q ∈ levelRun (known calls ++ [last]),
       q.ts = last.ts ∧ p.ts < q.ts ∧
       (∀ h ∈ levelRun (known calls ++ [last]), h.ts < q.ts → h.ts ≤ p.ts) ∧
       ∃ part : ℝ, 0 ≤ part ∧ part ≤ 1 ∧ part * ((q.ts - p.ts : Int) : ℝ) = ((cur - q.ts : Int) : ℝ) ∧
         (timeAnswer calls last cur).toXY = between p.toXY q.toXY part ∧
         (timeAnswer calls last cur).ts = cur) := by
  rw [List.pairwise_append] at hord
  obtain ⟨i1, i2⟩ := time_inv calls (fun p hp => hk p (List.mem_append_left _ hp)) hord.1
  by_cases hts : last.ts ≤ cur
  swap
  · have : timeAnswer calls last cur = last := by
      unfold timeAnswer timeSmooth; rw [if_pos (not_le.mp hts)]
    rw [this]; exact ⟨rfl, Or.inl rfl⟩
  obtain ⟨hI, h, hn⟩ := time_step calls last cur hts (fun p hp => (hk p (List.mem_append_left _ hp)).1)
    (hk last (by simp)).1 (hk last (by simp)).2 (fun p hp => hord.2.2 p hp last (by simp)) i1 i2
  have lv := levelRun_level (known calls ++ [last]) last (by simp)
  rcases h with h | h
  · rw [h]; exact ⟨rfl, Or.inl rfl⟩
  rw [h]
  generalize (timeSmooth (timeRun calls) last cur).2 = s at hI hn h
  clear h
  rw [timeInterpolate_eq]
  by_cases heq : s.next.ts = s.prev.ts
  · rw [if_pos heq]
    exact ⟨lv _ hI.next, Or.inr (Or.inl ⟨hI.next, hn⟩)⟩
  rw [if_neg heq]
  dsimp only
  by_cases hgt : ((cur - s.next.ts : Int) : ℝ) > ((s.next.ts - s.prev.ts : Int) : ℝ)
  · rw [if_pos hgt]; exact ⟨rfl, Or.inl rfl⟩
  rw [if_neg hgt]
  refine ⟨lv s.next hI.next, Or.inr (Or.inr ⟨s.prev, hI.prev, s.next, hI.next, hn,
    lt_of_le_of_ne hI.order (Ne.symm heq), hI.second, ?_⟩)⟩
  have hlt : s.prev.ts < s.next.ts := lt_of_le_of_ne hI.order (Ne.symm heq)
  have hpos : (0 : ℝ) < ((s.next.ts - s.prev.ts : Int) : ℝ) := by exact_mod_cast sub_pos.mpr hlt
  have hcur : (0 : ℝ) ≤ ((cur - s.next.ts : Int) : ℝ) := by exact_mod_cast sub_nonneg.mpr (by omega)
  refine ⟨((cur - s.next.ts : Int) : ℝ) / ((s.next.ts - s.prev.ts : Int) : ℝ), div_nonneg hcur hpos.le,
    (div_le_one hpos).mpr (not_lt.mp hgt), div_mul_cancel₀ _ hpos.ne', ?_, rfl⟩
  generalize ((cur - s.next.ts : Int) : ℝ) = u at *
  generalize ((s.next.ts - s.prev.ts : Int) : ℝ) = v at *
  unfold between Position.toXY
  congr 1
  · field_simp; ring
  · field_simp; ring

/-- **C43.** The order is needed: a position older than the kept pair makes the smoother extrapolate
backwards out of the segment (here to `x = -5` from positions with `x` in `{0, 10, 7}`). -/
theorem C43_out_of_order_witness :
    let pos : ℝ → Int → Position := fun x ts => ⟨x, 0, "1", 1, ts, false, .INDOOR, 0⟩
    (timeAnswer [(pos 0 1000, 1000), (pos 10 2000, 2000)] (pos 7 1500) 1500).x = -5 := by
  intro pos
  simp only [timeAnswer, timeRun, List.foldl_cons, List.foldl_nil]
  have h1 : (timeSmooth timeInit (pos 0 1000) 1000).2 = ⟨pos 0 1000, pos 0 1000⟩ := by
    simp [timeSmooth, timeInit, Position.default, pos]
  rw [h1]
  have h2 : (timeSmooth ⟨pos 0 1000, pos 0 1000⟩ (pos 10 2000) 2000).2 = ⟨pos 0 1000, pos 10 2000⟩ := by
    simp [timeSmooth, pos]
  rw [h2]
  simp [timeSmooth, timeInterpolate_eq, pos]
  norm_num

/-- A history meeting the hypotheses of `C43_segment`, with an answer in the middle of the segment. -/
example :
    let pos : ℝ → Int → Position := fun x ts => ⟨x, 0, "1", 1, ts, false, .INDOOR, 0⟩
    let calls := [(pos 0 1000, 1000), (pos 10 2000, (2000 : Int))]
    (∀ p ∈ known calls ++ [pos 10 2000], p.isEmpty = false ∧ p.levelId ≠ "") ∧
    (known calls ++ [pos 10 2000]).Pairwise (fun p q => p.ts ≤ q.ts) ∧
    (timeAnswer calls (pos 10 2000) 2500).x = 5 := by
  intro pos calls
  have hkn : known calls = [pos 0 1000, pos 10 2000] := by simp [known, calls, pos]
  rw [hkn]
  refine ⟨?_, ?_, ?_⟩
  · simp [pos]
  · simp [pos]
  · simp only [timeAnswer, timeRun, List.foldl_cons, List.foldl_nil, calls]
    have h1 : (timeSmooth timeInit (pos 0 1000) 1000).2 = ⟨pos 0 1000, pos 0 1000⟩ := by
      simp [timeSmooth, timeInit, Position.default, pos]
    rw [h1]
    have h2 : (timeSmooth ⟨pos 0 1000, pos 0 1000⟩ (pos 10 2000) 2000).2 = ⟨pos 0 1000, pos 10 2000⟩ := by
      simp [timeSmooth, pos]
    rw [h2]
    simp [timeSmooth, timeInterpolate_eq, pos]
    norm_num

end Verif.Smooth
