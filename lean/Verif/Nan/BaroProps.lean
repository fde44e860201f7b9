import Verif.Nan.BaroSpec
import Verif.Nan.Props
import Verif.LevelEst.BarometerProps

/-!
# Property theorems for C146: a pressure that is not a number
-/

namespace Verif.Nan

section
variable {α : Type} {A : Arithmetic α}

theorem runBaro_snoc (calls : List (String × Msr α)) (c : String × Msr α) :
    runBaro A (calls ++ [c]) = (checkLevelChange A (runBaro A calls) c.1 c.2).2 := by simp [runBaro]

theorem updateBuffers_fields (b : Baro α) (m : Msr α) :
    (updateBuffers b m).isInitialized = b.isInitialized ∧ (updateBuffers b m).lastKnownLevel = b.lastKnownLevel := by
  unfold updateBuffers
  dsimp only
  split_ifs <;> exact ⟨rfl, rfl⟩

theorem updateLevel_buffers (b : Baro α) (l : String) :
    (updateLevel A b l).newM = b.newM ∧ (updateLevel A b l).stored = b.stored ∧ (updateLevel A b l).isInitialized = b.isInitialized := by
  unfold updateLevel
  dsimp only
  split_ifs <;> exact ⟨rfl, rfl, rfl⟩

theorem check_of_init {b : Baro α} (h : b.isInitialized = true) (l : String) (m : Msr α) :
    checkLevelChange A b l m = ((updateLevel A (updateBuffers b m) l).lastKnownLevel, updateLevel A (updateBuffers b m) l) := by
  unfold checkLevelChange
  rw [h]
  rfl

theorem runBaro_init (calls : List (String × Msr α)) : (runBaro A calls).isInitialized = !calls.isEmpty := by
  induction calls using List.reverseRecOn with
  | nil => rfl
  | append_singleton calls c ih =>
    rw [runBaro_snoc]
    have : (checkLevelChange A (runBaro A calls) c.1 c.2).2.isInitialized = true := by
      by_cases h : (runBaro A calls).isInitialized = true
      · rw [check_of_init h, (updateLevel_buffers _ _).2.2, (updateBuffers_fields _ _).1, h]
      · simp only [Bool.not_eq_true] at h
        unfold checkLevelChange
        rw [h]
        rfl
    rw [this]; simp

theorem pressuresOf_snoc (calls : List (String × Msr α)) (c : String × Msr α) (h : calls ≠ []) :
    pressuresOf (calls ++ [c]) = pressuresOf calls ++ if c.2.type = .BAROMETER then [c.2.values.x] else [] := by
  cases calls with
  | nil => exact absurd rfl h
  | cons a l =>
    simp only [pressuresOf, List.cons_append, List.drop_succ_cons, List.drop_zero, List.filterMap_append,
      List.filterMap_cons, List.filterMap_nil]
    split_ifs <;> rfl

theorem lastOf_snoc (n : ℕ) (l : List α) (a : α) (hn : 0 < n) :
    lastOf n (l ++ [a]) = (if (lastOf n l).length ≥ n then (lastOf n l).drop 1 else lastOf n l) ++ [a] :=
  LevelEst.lastN_snoc n l a hn

/-- The pressures before the newest 101. -/
def precedingOf (ps : List α) : List α := lastOf 101 (ps.take (ps.length - 101))

theorem baro_buffers (calls : List (String × Msr α)) :
    (runBaro A calls).newM = lastOf 101 (pressuresOf calls) ∧ (runBaro A calls).stored = precedingOf (pressuresOf calls) := by
  induction calls using List.reverseRecOn with
  | nil => simp [runBaro, Baro.init, pressuresOf, precedingOf, lastOf]
  | append_singleton calls c ih =>
    rw [runBaro_snoc]
    by_cases hne : calls = []
    · subst hne
      have hp : pressuresOf ([] ++ [c]) = [] := rfl
      rw [hp]
      simp [runBaro, checkLevelChange, Baro.init, precedingOf, lastOf]
    · have hi : (runBaro A calls).isInitialized = true := by
        rw [runBaro_init]; cases calls <;> simp_all
      have hstep : (checkLevelChange A (runBaro A calls) c.1 c.2).2 = updateLevel A (updateBuffers (runBaro A calls) c.2) c.1 := by
        rw [check_of_init hi]
      rw [hstep, (updateLevel_buffers _ _).1, (updateLevel_buffers _ _).2.1, pressuresOf_snoc calls c hne]
      obtain ⟨ih1, ih2⟩ := ih
      by_cases hb : c.2.type = .BAROMETER
      · rw [if_pos hb]
        unfold updateBuffers
        rw [if_pos hb]
        set ps := pressuresOf calls
        have hln : (lastOf 101 ps).length = min ps.length 101 := by
          simp [lastOf]; omega
        have hls : (precedingOf ps).length = min (ps.length - 101) 101 := by
          simp [precedingOf, lastOf]; omega
        have hnew := lastOf_snoc 101 ps c.2.values.x (by omega)
        have hpre : precedingOf (ps ++ [c.2.values.x]) =
            (if (lastOf 101 ps).length ≥ 101 then
              (if (precedingOf ps).length ≥ 101 then (precedingOf ps).drop 1 else precedingOf ps) ++ (lastOf 101 ps).take 1
             else precedingOf ps) := by
          unfold precedingOf
          rw [List.length_append, List.length_singleton]
          by_cases h101 : 101 ≤ ps.length
          · rw [if_pos (by omega)]
            have h1 : ps.length + 1 - 101 = (ps.length - 101) + 1 := by omega
            rw [h1, List.take_append_of_le_length (by omega)]
            have hlt : ps.length - 101 < ps.length := by omega
            rw [List.take_succ_eq_append_getElem hlt]
            have htake : (lastOf 101 ps).take 1 = [ps[ps.length - 101]] := by
              unfold lastOf
              rw [List.take_one, List.head?_drop, List.getElem?_eq_getElem hlt]
              rfl
            rw [lastOf_snoc 101 _ _ (by omega), htake]
          · rw [if_neg (by omega)]
            have h1 : ps.length + 1 - 101 = 0 := by omega
            have h2 : ps.length - 101 = 0 := by omega
            rw [h1, h2]; simp
        rw [hnew, hpre, ← ih1, ← ih2]
        by_cases c1 : (runBaro A calls).stored.length > 100
        · have c2 : (runBaro A calls).newM.length > 100 := by rw [ih1, hln]; rw [ih2, hls] at c1; omega
          simp only [c1, c2, if_true]
          rw [if_pos (by omega), if_pos (by omega), if_pos (by omega)]
          exact ⟨rfl, rfl⟩
        · by_cases c2 : (runBaro A calls).newM.length > 100
          · simp only [c1, c2, if_true, if_false]
            rw [if_pos (by omega), if_pos (by omega), if_neg (by omega)]
            exact ⟨rfl, rfl⟩
          · simp only [c1, c2, if_false]
            rw [if_neg (by omega), if_neg (by omega)]
            exact ⟨rfl, rfl⟩
      · rw [if_neg hb, List.append_nil]
        unfold updateBuffers
        rw [if_neg hb]
        exact ⟨ih1, ih2⟩

/-- The newest 202 pressures are the two buffers. -/
theorem buffers_append (ps : List α) : precedingOf ps ++ lastOf 101 ps = lastOf 202 ps := by
  unfold precedingOf lastOf
  rw [List.length_take, show min (ps.length - 101) ps.length - 101 = ps.length - 202 by omega]
  by_cases h : ps.length ≤ 101
  · rw [show ps.length - 101 = 0 by omega, show ps.length - 202 = 0 by omega]
    rfl
  · have := List.drop_append_of_le_length (l₁ := ps.take (ps.length - 101)) (l₂ := ps.drop (ps.length - 101)) (i := ps.length - 202)
      (by rw [List.length_take]; omega)
    rw [List.take_append_drop] at this
    exact this.symm

theorem nan_sum (h : Propagates A) (l : List α) (a : α) (k : A.nan a ∨ ∃ p ∈ l, A.nan p) : A.nan (l.foldl A.add a) := by
  induction l generalizing a with
  | nil =>
    rcases k with k | ⟨p, hp, -⟩
    · exact k
    · cases hp
  | cons q qs ih =>
    apply ih
    rcases k with k | ⟨p, hp, k⟩
    · exact .inl (h.add _ _ (.inl k))
    · rcases List.mem_cons.mp hp with rfl | hp
      · exact .inl (h.add _ _ (.inr k))
      · exact .inr ⟨p, hp, k⟩

theorem nan_mean (h : Propagates A) (l : List α) (k : ∃ p ∈ l, A.nan p) : A.nan (calcMean A l) := by
  unfold calcMean
  obtain ⟨p, hp, hn⟩ := k
  have : l.isEmpty = false := by cases l <;> simp_all
  rw [this]
  exact h.div _ _ (.inl (nan_sum h l _ (.inr ⟨p, hp, hn⟩)))

/-- What one more call does once two hundred pressures have been counted: it answers as before unless a difference of two metres shows. -/
theorem floor_step (calls : List (String × Msr α)) (hne : calls ≠ []) (c' c : String × Msr α)
    (hlen : 201 ≤ (pressuresOf (calls ++ [c', c])).length) :
    let ps := pressuresOf (calls ++ [c', c])
    let cur := calcMean A (lastOf 101 ps)
    let old := calcMean A (precedingOf ps)
    floorAfter A (calls ++ [c']) c = floorAfter A calls c' ∨
    (¬ A.le cur (A.lit LevelEst.doubleEpsilon) ∧ ¬ A.le old (A.lit LevelEst.doubleEpsilon) ∧
      A.lt (A.lit 2) (A.abs (A.mul (A.lit LevelEst.pascalToMeters) (A.log (A.div (A.mul (A.lit 100) cur) (A.mul (A.lit 100) old))))) ∧
      floorAfter A (calls ++ [c']) c = c.1) := by
  dsimp only
  have hps : pressuresOf (calls ++ [c', c]) = pressuresOf ((calls ++ [c']) ++ [c]) := by simp
  rw [hps] at hlen ⊢
  have hi : (runBaro A (calls ++ [c'])).isInitialized = true := by rw [runBaro_init]; simp
  have hi0 : (runBaro A calls).isInitialized = true := by
    rw [runBaro_init]; cases calls <;> simp_all
  have hprev : floorAfter A calls c' = (runBaro A (calls ++ [c'])).lastKnownLevel := by
    rw [runBaro_snoc]; unfold floorAfter; rw [check_of_init hi0]
  have hout : floorAfter A (calls ++ [c']) c = (updateLevel A (updateBuffers (runBaro A (calls ++ [c'])) c.2) c.1).lastKnownLevel := by
    unfold floorAfter; rw [check_of_init hi]
  have hrun : runBaro A (calls ++ [c'] ++ [c]) = updateLevel A (updateBuffers (runBaro A (calls ++ [c'])) c.2) c.1 := by
    rw [runBaro_snoc, check_of_init hi]
  obtain ⟨hb1, hb2⟩ := baro_buffers (A := A) (calls ++ [c'] ++ [c])
  rw [hrun, (updateLevel_buffers _ _).1] at hb1
  rw [hrun, (updateLevel_buffers _ _).2.1] at hb2
  have hlast : (updateBuffers (runBaro A (calls ++ [c'])) c.2).lastKnownLevel = (runBaro A (calls ++ [c'])).lastKnownLevel :=
    (updateBuffers_fields _ _).2
  rw [hout, hprev, ← hlast, ← hb1, ← hb2]
  set b := updateBuffers (runBaro A (calls ++ [c'])) c.2
  set ps := pressuresOf (calls ++ [c'] ++ [c])
  have hln : b.newM.length = min ps.length 101 := by
    rw [hb1]; simp [lastOf]; omega
  have hls : b.stored.length = min (ps.length - 101) 101 := by
    rw [hb2]; simp [precedingOf, lastOf]; omega
  unfold updateLevel
  dsimp only
  rw [if_pos (by omega)]
  split_ifs with h1 h2 h3
  · exact .inl rfl
  · exact .inr ⟨fun k => h2 (.inl k), fun k => h2 (.inr k), h3, rfl⟩
  · exact .inl rfl
  · exact .inl rfl

/-- **C146.** Once two hundred pressures have been counted, a pressure that is not a number holds the floor as long as it is among the
newest 202, whatever the signals vote for. -/
theorem C146_frozen (h : Propagates A) (calls : List (String × Msr α)) (hne : calls ≠ []) (c' c : String × Msr α)
    (hlen : 201 ≤ (pressuresOf (calls ++ [c', c])).length) (hbad : ∃ p ∈ lastOf 202 (pressuresOf (calls ++ [c', c])), A.nan p) :
    floorAfter A (calls ++ [c']) c = floorAfter A calls c' := by
  rcases floor_step (A := A) calls hne c' c hlen with k | ⟨-, -, k, -⟩
  · exact k
  · exfalso
    refine h.lt _ _ (.inr (h.abs _ (h.mul _ _ (.inr (h.log _ (h.div _ _ ?_)))))) k
    obtain ⟨p, hp, hn⟩ := hbad
    rw [← buffers_append, List.mem_append] at hp
    rcases hp with hp | hp
    · exact .inr (h.mul _ _ (.inr (nan_mean h _ ⟨p, hp, hn⟩)))
    · exact .inl (h.mul _ _ (.inr (nan_mean h _ ⟨p, hp, hn⟩)))

/-- **C146, forgotten.** Only the newest 202 pressures, the floor before and the vote matter: two barometers that agree in these answer
the same, whatever else they have heard. -/
theorem C146_forgotten (x y : List (String × Msr α)) (hx : x ≠ []) (hy : y ≠ []) (a' b' a b : String × Msr α)
    (lx : 202 ≤ (pressuresOf (x ++ [a', a])).length) (ly : 202 ≤ (pressuresOf (y ++ [b', b])).length)
    (hp : lastOf 202 (pressuresOf (x ++ [a', a])) = lastOf 202 (pressuresOf (y ++ [b', b]))) (hv : a.1 = b.1)
    (hf : floorAfter A x a' = floorAfter A y b') :
    floorAfter A (x ++ [a']) a = floorAfter A (y ++ [b']) b := by
  have view : ∀ (x : List (String × Msr α)) (a' a : String × Msr α), x ≠ [] → ∃ i,
      floorAfter A (x ++ [a']) a = (updateLevel A ⟨lastOf 101 (pressuresOf (x ++ [a', a])), precedingOf (pressuresOf (x ++ [a', a])), i,
        floorAfter A x a'⟩ a.1).lastKnownLevel := by
    intro x a' a hx
    have hi : (runBaro A (x ++ [a'])).isInitialized = true := by rw [runBaro_init]; simp
    have hi0 : (runBaro A x).isInitialized = true := by
      rw [runBaro_init]; cases x <;> simp_all
    have hprev : floorAfter A x a' = (runBaro A (x ++ [a'])).lastKnownLevel := by
      rw [runBaro_snoc]; unfold floorAfter; rw [check_of_init hi0]
    obtain ⟨hb1, hb2⟩ := baro_buffers (A := A) (x ++ [a'] ++ [a])
    rw [runBaro_snoc, check_of_init hi, (updateLevel_buffers _ _).1] at hb1
    rw [runBaro_snoc, check_of_init hi, (updateLevel_buffers _ _).2.1] at hb2
    rw [show x ++ [a', a] = x ++ [a'] ++ [a] by simp, ← hb1, ← hb2, hprev, ← (updateBuffers_fields (runBaro A (x ++ [a'])) a.2).2]
    refine ⟨(updateBuffers (runBaro A (x ++ [a'])) a.2).isInitialized, ?_⟩
    unfold floorAfter
    rw [check_of_init hi]
  have free : ∀ (n m : List α) (i j : Bool) (l v : String),
      (updateLevel A ⟨n, m, i, l⟩ v).lastKnownLevel = (updateLevel A ⟨n, m, j, l⟩ v).lastKnownLevel := by
    intro n m i j l v
    unfold updateLevel
    dsimp only
    split_ifs <;> rfl
  obtain ⟨i, ex⟩ := view x a' a hx
  obtain ⟨j, ey⟩ := view y b' b hy
  rw [← buffers_append, ← buffers_append] at hp
  have := List.append_inj hp (by simp [precedingOf, lastOf]; omega)
  rw [ex, ey, this.1, this.2, hf, hv]
  exact free _ _ _ _ _ _

end

/-! ## Exact numbers -/

theorem sum_same (q : ℝ) (l : List (Option ℝ)) (hl : ∀ p ∈ l, p = some q) (a : ℝ) :
    l.foldl exact.add (some a) = some (a + l.length * q) := by
  induction l generalizing a with
  | nil => simp
  | cons p l ih =>
    rw [List.foldl_cons, hl p (by simp), show exact.add (some a) (some q) = some (a + q) from rfl, ih (fun p hp => hl p (by simp [hp]))]
    congr 1
    push_cast [List.length_cons]
    ring

theorem mean_same {q : ℝ} {l : List (Option ℝ)} (hl : ∀ p ∈ l, p = some q) (hne : l ≠ []) : calcMean exact l = some q := by
  unfold calcMean
  have h0 : l.isEmpty = false := by cases l <;> simp_all
  have hn : ((l.length : ℕ) : ℝ) ≠ 0 := by
    have := List.length_pos_iff.mpr hne
    positivity
  rw [h0, show exact.lit 0 = some 0 from rfl, sum_same q l hl, show exact.lit ((l.length : ℕ) : ℝ) = some ((l.length : ℕ) : ℝ) from rfl]
  simp only [Bool.false_eq_true, if_false]
  rw [e_div _ hn]
  congr 1
  field_simp
  ring

/-- Equal pressures show no difference. -/
theorem level_still {q : ℝ} {ps : List (Option ℝ)} (hl : ∀ p ∈ lastOf 202 ps, p = some q) (hlen : 201 ≤ ps.length) :
    ¬ (¬ exact.le (calcMean exact (lastOf 101 ps)) (exact.lit LevelEst.doubleEpsilon) ∧
      exact.lt (exact.lit 2) (exact.abs (exact.mul (exact.lit LevelEst.pascalToMeters) (exact.log
        (exact.div (exact.mul (exact.lit 100) (calcMean exact (lastOf 101 ps))) (exact.mul (exact.lit 100) (calcMean exact (precedingOf ps)))))))) := by
  have h1 : ∀ p ∈ lastOf 101 ps, p = some q := fun p hp => hl p (by rw [← buffers_append]; simp [hp])
  have h2 : ∀ p ∈ precedingOf ps, p = some q := fun p hp => hl p (by rw [← buffers_append]; simp [hp])
  have n1 : lastOf 101 ps ≠ [] := by
    rw [← List.length_pos_iff]; simp [lastOf]; omega
  have n2 : precedingOf ps ≠ [] := by
    rw [← List.length_pos_iff]; simp [precedingOf, lastOf]; omega
  rw [mean_same h1 n1, mean_same h2 n2]
  rintro ⟨k1, k2⟩
  have hq : 0 < q := by
    have : ¬ q ≤ LevelEst.doubleEpsilon := k1
    have he : 0 < LevelEst.doubleEpsilon := by unfold LevelEst.doubleEpsilon; norm_num
    linarith [not_le.mp this]
  rw [show exact.mul (exact.lit 100) (some q) = some (100 * q) from rfl, e_div _ (by positivity), div_self (by positivity),
    show exact.log (some 1) = some 0 by
      show (if (1 : ℝ) ≤ 0 then none else some (Real.log 1)) = _
      rw [if_neg (by norm_num), Real.log_one],
    show exact.abs (exact.mul (exact.lit LevelEst.pascalToMeters) (some 0)) = some |LevelEst.pascalToMeters * 0| from rfl] at k2
  have k3 : (2 : ℝ) < |LevelEst.pascalToMeters * 0| := k2
  rw [mul_zero, abs_zero] at k3
  linarith

theorem pressuresOf_append {α : Type} (calls more : List (String × Msr α)) (h : calls ≠ []) :
    pressuresOf (calls ++ more) =
      pressuresOf calls ++ more.filterMap (fun c => if c.2.type = .BAROMETER then some c.2.values.x else none) := by
  cases calls with
  | nil => exact absurd rfl h
  | cons a l => simp [pressuresOf]

/-- An element with fewer than `n` after it is among the last `n`; otherwise those are all after it. -/
theorem lastOf_mid {α : Type} (n : ℕ) (a : List α) (x : α) (b : List α) :
    (b.length < n → x ∈ lastOf n (a ++ x :: b)) ∧ (n ≤ b.length → ∀ p ∈ lastOf n (a ++ x :: b), p ∈ b) := by
  unfold lastOf
  rw [List.length_append, List.length_cons]
  constructor
  · intro h
    rw [List.drop_append]
    have : a.length + (b.length + 1) - n - a.length = 0 := by omega
    rw [this]
    simp
  · intro h p hp
    rw [show a ++ x :: b = (a ++ [x]) ++ b by simp, List.drop_append, List.drop_eq_nil_of_le (by simp; omega), List.nil_append] at hp
    exact List.mem_of_mem_drop hp

/-- **C146, what fails.** Someone changes the floor right after a pressure that is not a number and stays there: the floor never changes
again, whatever the signals vote for and however long they vote. -/
theorem C146_stuck (calls : List (String × Msr (Option ℝ))) (hne : calls ≠ []) (c' bad : String × Msr (Option ℝ))
    (hlen : 200 ≤ (pressuresOf (calls ++ [c'])).length) (hb : bad.2.type = .BAROMETER) (hn : bad.2.values.x = none) (q : ℝ)
    (later : List (String × Msr (Option ℝ))) (hl : ∀ c ∈ later, c.2.type = .BAROMETER → c.2.values.x = some q) (c : String × Msr (Option ℝ))
    (hc : c.2.type = .BAROMETER → c.2.values.x = some q) :
    floorAfter exact (calls ++ [c'] ++ bad :: later) c = floorAfter exact calls c' := by
  have key : ∀ (x : List (String × Msr (Option ℝ))) (c'' c : String × Msr (Option ℝ)) (more : List (String × Msr (Option ℝ))),
      x ++ [c'', c] = calls ++ [c'] ++ bad :: more → x ≠ [] → (∀ c ∈ more, c.2.type = .BAROMETER → c.2.values.x = some q) →
      floorAfter exact (x ++ [c'']) c = floorAfter exact x c'' := by
    intro x c'' c more hx hx0 hm
    have hp : pressuresOf (x ++ [c'', c]) = pressuresOf (calls ++ [c']) ++ none ::
        more.filterMap (fun c => if c.2.type = .BAROMETER then some c.2.values.x else none) := by
      rw [hx, pressuresOf_append _ _ (by simp), List.filterMap_cons]
      simp [hb, hn]
    have hlen' : 201 ≤ (pressuresOf (x ++ [c'', c])).length := by
      rw [hp, List.length_append, List.length_cons]; omega
    have hq : ∀ p ∈ more.filterMap (fun c => if c.2.type = .BAROMETER then some c.2.values.x else none), p = some q := by
      intro p hp
      obtain ⟨c, hc, e⟩ := List.mem_filterMap.mp hp
      split_ifs at e with k
      · cases e
        exact hm c hc k
    by_cases hk : (more.filterMap (fun c => if c.2.type = .BAROMETER then some c.2.values.x else none)).length < 202
    · exact C146_frozen exact_propagates x hx0 c'' c hlen' ⟨none, by rw [hp]; exact (lastOf_mid _ _ _ _).1 hk, rfl⟩
    · rcases floor_step (A := exact) x hx0 c'' c hlen' with k | ⟨k1, k2, k3, -⟩
      · exact k
      · refine absurd ⟨k1, k3⟩ (level_still (q := q) (fun p h => hq p ?_) hlen')
        rw [hp] at h
        exact (lastOf_mid _ _ _ _).2 (by omega) p h
  have all : ∀ (later : List (String × Msr (Option ℝ))), (∀ c ∈ later, c.2.type = .BAROMETER → c.2.values.x = some q) →
      ∀ c : String × Msr (Option ℝ), (c.2.type = .BAROMETER → c.2.values.x = some q) →
      floorAfter exact (calls ++ [c'] ++ bad :: later) c = floorAfter exact calls c' := by
    intro later
    induction later using List.reverseRecOn with
    | nil =>
      intro _ c hc
      have h1 := key calls c' bad [] (by simp) hne (by simp)
      have h2 := key (calls ++ [c']) bad c [c] (by simp) (by simp) (by simpa using hc)
      exact h2.trans h1
    | append_singleton later d ih =>
      intro hl c hc
      have hd := hl d (by simp)
      have hl' : ∀ c ∈ later, c.2.type = .BAROMETER → c.2.values.x = some q := fun c hc => hl c (by simp [hc])
      have h1 := key (calls ++ [c'] ++ bad :: later) d c (later ++ [d, c]) (by simp) (by simp) (by
        intro e he
        rcases List.mem_append.mp he with he | he
        · exact hl' e he
        · simp at he
          rcases he with rfl | rfl
          · exact hd
          · exact hc)
      have h2 := ih hl' d hd
      rw [show calls ++ [c'] ++ bad :: (later ++ [d]) = calls ++ [c'] ++ bad :: later ++ [d] by simp]
      exact h1.trans h2
  exact all later hl c hc

theorem e_sumlist (l : List ℝ) (a : ℝ) : (l.map some).foldl exact.add (some a) = some (l.foldl (· + ·) a) := by
  induction l generalizing a with
  | nil => rfl
  | cons x l ih =>
    rw [List.map_cons, List.foldl_cons, List.foldl_cons]
    exact ih _

theorem e_mean (l : List ℝ) : calcMean exact (l.map some) = some (LevelEst.calcMean l) := by
  unfold calcMean
  rw [LevelEst.calcMean_div]
  cases l with
  | nil => rfl
  | cons x l =>
    have hn : ((List.map some (x :: l)).length : ℝ) ≠ 0 := by simp; positivity
    simp only [List.map_cons, List.isEmpty_cons, Bool.false_eq_true, if_false]
    rw [← List.map_cons, show exact.lit 0 = some 0 from rfl, e_sumlist,
      show exact.lit ((List.map some (x :: l)).length : ℝ) = some ((List.map some (x :: l)).length : ℝ) from rfl, e_div _ hn, List.length_map]

/-- One call with numbers. -/
theorem e_check (b : LevelEst.Barometer) (l : String) (m : SensorMeasurement) :
    checkLevelChange exact (ofBaro b) l (ofM m) =
      ((LevelEst.checkLevelChange b l m).1, ofBaro (LevelEst.checkLevelChange b l m).2) := by
  have hbuf : updateBuffers (ofBaro b) (ofM m) = ofBaro (LevelEst.updateBuffers b m) := by
    unfold updateBuffers LevelEst.updateBuffers LevelEst.sizeOfChunk
    rw [show (ofM m).type = m.data.type from rfl]
    by_cases h : m.data.type = .BAROMETER
    · rw [if_pos h, if_pos h]
      by_cases h1 : b.stored.length > 100 <;> by_cases h2 : b.newM.length > 100 <;> simp [ofBaro, h1, h2, ofM, ofV]
    · rw [if_neg h, if_neg h]
  have hlev : ∀ b : LevelEst.Barometer, updateLevel exact (ofBaro b) l = ofBaro (LevelEst.updateLevel b l) := by
    intro b
    rw [LevelEst.updateLevel_eq]
    unfold updateLevel LevelEst.sizeOfChunk
    rw [show (ofBaro b).newM = b.newM.map some from rfl, show (ofBaro b).stored = b.stored.map some from rfl, List.length_map,
      List.length_map, show (ofBaro b).lastKnownLevel = b.lastKnownLevel from rfl]
    dsimp only
    rw [e_mean, e_mean]
    by_cases h1 : b.newM.length > 100 ∧ b.stored.length ≥ 100
    · rw [if_pos h1, if_pos h1]
      by_cases h2 : b.lastKnownLevel ≠ l
      · rw [if_pos h2, if_pos h2]
        have he : 0 < LevelEst.doubleEpsilon := by unfold LevelEst.doubleEpsilon; norm_num
        by_cases h3 : LevelEst.calcMean b.newM ≤ LevelEst.doubleEpsilon ∨ LevelEst.calcMean b.stored ≤ LevelEst.doubleEpsilon
        · have h3' : exact.le (some (LevelEst.calcMean b.newM)) (exact.lit LevelEst.doubleEpsilon) ∨
              exact.le (some (LevelEst.calcMean b.stored)) (exact.lit LevelEst.doubleEpsilon) := h3
          rw [if_pos h3, if_pos h3']
        · have h3' : ¬ (exact.le (some (LevelEst.calcMean b.newM)) (exact.lit LevelEst.doubleEpsilon) ∨
              exact.le (some (LevelEst.calcMean b.stored)) (exact.lit LevelEst.doubleEpsilon)) := h3
          rw [if_neg h3, if_neg h3']
          push Not at h3
          have p1 : 0 < LevelEst.calcMean b.newM := he.trans h3.1
          have p2 : 0 < LevelEst.calcMean b.stored := he.trans h3.2
          have hd : 0 < 100 * LevelEst.calcMean b.newM / (100 * LevelEst.calcMean b.stored) := by positivity
          rw [show exact.mul (exact.lit 100) (some (LevelEst.calcMean b.newM)) = some (100 * LevelEst.calcMean b.newM) from rfl,
            show exact.mul (exact.lit 100) (some (LevelEst.calcMean b.stored)) = some (100 * LevelEst.calcMean b.stored) from rfl,
            e_div _ (by positivity),
            show exact.log (some (100 * LevelEst.calcMean b.newM / (100 * LevelEst.calcMean b.stored))) =
              some (Real.log (100 * LevelEst.calcMean b.newM / (100 * LevelEst.calcMean b.stored))) from if_neg (not_le.mpr hd)]
          set x := LevelEst.pascalToMeters * Real.log (100 * LevelEst.calcMean b.newM / (100 * LevelEst.calcMean b.stored)) with hx
          rw [show exact.abs (exact.mul (exact.lit LevelEst.pascalToMeters)
              (some (Real.log (100 * LevelEst.calcMean b.newM / (100 * LevelEst.calcMean b.stored))))) = some |x| from rfl]
          by_cases h4 : |x| > 2
          · rw [if_pos h4, if_pos (show exact.lt (exact.lit 2) (some |x|) from h4)]; rfl
          · rw [if_neg h4, if_neg (show ¬ exact.lt (exact.lit 2) (some |x|) from h4)]
      · rw [if_neg h2, if_neg h2]
    · rw [if_neg h1, if_neg h1]; rfl
  unfold checkLevelChange LevelEst.checkLevelChange
  rw [show (ofBaro b).isInitialized = b.isInitialized from rfl, hbuf, hlev]
  split_ifs <;> rfl

/-- **C146, numbers.** With exact numbers and pressures that are numbers the barometer of this model is that of C25 and C26. -/
theorem C146_numbers (calls : List (String × SensorMeasurement)) (c : String × SensorMeasurement) :
    floorAfter exact (calls.map fun c => (c.1, ofM c.2)) (c.1, ofM c.2) = LevelEst.baroOut calls c := by
  have run : ∀ calls : List (String × SensorMeasurement),
      runBaro exact (calls.map fun c => (c.1, ofM c.2)) = ofBaro (LevelEst.runBaro calls) := by
    intro calls
    induction calls using List.reverseRecOn with
    | nil => rfl
    | append_singleton calls c ih =>
      rw [List.map_append, List.map_singleton, runBaro_snoc, LevelEst.runBaro_snoc, ih, e_check]
  unfold floorAfter LevelEst.baroOut
  rw [run, e_check]

/-- A reading of a pressure as the code gets it. -/
def pressure (floor : String) (p : ℝ) : String × SensorMeasurement := (floor, ⟨⟨.BAROMETER, ⟨p, 0, 0⟩⟩, 0⟩)

theorem rep_ne {β : Type} {n : ℕ} (hn : n ≠ 0) (a : β) (l : List β) : List.replicate n a ++ l ≠ [] := by
  cases n with
  | zero => exact absurd rfl hn
  | succ n => rw [List.replicate_succ]; exact List.cons_ne_nil _ _

theorem rep_len (n : ℕ) (f : String) (p : ℝ) : (pressuresOf (List.replicate (n + 1) (f, ofM (pressure f p).2))).length = n := by
  rw [List.replicate_succ]
  simp [pressuresOf, pressure, ofM]

/-- **C146, the same walk.** Three hundred pressures on floor A, one more, and then the pressure eight metres higher while the signals vote
for floor B. With a number for the one, the floor is B from the hundred and first pressure on; with a value that is not a number the floor
stays A for ever. -/
theorem C146_lift :
    (∀ m : ℕ, LevelEst.baroOut (List.replicate 301 (pressure "A" 1013) ++ List.replicate 100 (pressure "B" 1012) ++
      List.replicate m (pressure "B" 1012)) (pressure "B" 1012) = "B") ∧
    (∀ m : ℕ, floorAfter exact ((List.replicate 300 (pressure "A" 1013)).map (fun c => (c.1, ofM c.2)) ++
      ("A", ⟨.BAROMETER, ⟨none, some 0, some 0⟩, 0⟩) :: (List.replicate m (pressure "B" 1012)).map (fun c => (c.1, ofM c.2)))
      ("B", ofM (pressure "B" 1012).2) = "A") := by
  have same : ∀ (n : ℕ) (f : String) (p : ℝ), LevelEst.baroOut (List.replicate n (pressure f p)) (pressure f p) = f := by
    intro n f p
    induction n with
    | zero => rfl
    | succ n ih =>
      rw [List.replicate_succ']
      rcases (LevelEst.C26_choice (List.replicate n (pressure f p)) (pressure f p) (pressure f p)).2 with k | k
      · exact k
      · exact k.trans ih
  constructor
  · have first : LevelEst.baroOut (List.replicate 301 (pressure "A" 1013) ++ List.replicate 100 (pressure "B" 1012)) (pressure "B" 1012) = "B" := by
      have hps : LevelEst.pressures ((List.replicate 301 (pressure "A" 1013) ++ List.replicate 99 (pressure "B" 1012)) ++
          [pressure "B" 1012, pressure "B" 1012]) = List.replicate 300 1013 ++ List.replicate 101 1012 := by
        have fm : ∀ (n : ℕ) (f : String) (p : ℝ), (List.replicate n (pressure f p)).filterMap
            (fun c => if c.2.data.type = .BAROMETER then some c.2.data.values.x else none) = List.replicate n p := by
          intro n f p
          simp [pressure]
        unfold LevelEst.pressures
        rw [show List.replicate 301 (pressure "A" 1013) = pressure "A" 1013 :: List.replicate 300 (pressure "A" 1013) from
            List.replicate_succ, List.append_assoc, List.cons_append, List.drop_succ_cons, List.drop_zero,
          show [pressure "B" 1012, pressure "B" 1012] = List.replicate 2 (pressure "B" 1012) from rfl, List.replicate_append_replicate,
          List.filterMap_append, fm, fm]
      have hcl : LevelEst.Climbed (List.replicate 300 1013 ++ List.replicate 101 1012) := by
        have e1 : LevelEst.newest (List.replicate 300 (1013 : ℝ) ++ List.replicate 101 1012) = List.replicate 101 1012 :=
          LevelEst.lastN_append 101 _ _ List.length_replicate
        have e2 : LevelEst.preceding (List.replicate 300 (1013 : ℝ) ++ List.replicate 101 1012) = List.replicate 101 1013 := by
          unfold LevelEst.preceding LevelEst.lastN
          rw [List.length_append, List.length_replicate, List.length_replicate, Nat.add_sub_cancel,
            List.take_left' List.length_replicate, List.length_replicate, List.drop_replicate]
        unfold LevelEst.Climbed
        rw [e1, e2, LevelEst.mean_replicate _ _ (by norm_num), LevelEst.mean_replicate _ _ (by norm_num), lt_abs]
        refine ⟨by norm_num, by norm_num, .inr ?_⟩
        have h1 : Real.log (1012 / 1013) ≤ 1012 / 1013 - 1 := Real.log_le_sub_one_of_pos (by norm_num)
        have hH : (8000 : ℝ) < LevelEst.scaleHeight := by unfold LevelEst.scaleHeight; norm_num
        nlinarith
      have := (LevelEst.C26_hold (List.replicate 301 (pressure "A" 1013) ++ List.replicate 99 (pressure "B" 1012)) (rep_ne (by norm_num) _ _)
        (pressure "B" 1012) (pressure "B" 1012)).2
      rw [hps] at this
      have k := (this (by rw [List.length_append, List.length_replicate, List.length_replicate]; norm_num)).1 hcl
      rw [List.append_assoc, ← List.replicate_succ'] at k
      exact k
    intro m
    induction m with
    | zero => rw [List.replicate_zero, List.append_nil]; exact first
    | succ m ih =>
      rw [show List.replicate (m + 1) (pressure "B" 1012) = List.replicate m (pressure "B" 1012) ++ [pressure "B" 1012] from
        List.replicate_succ', ← List.append_assoc]
      rcases (LevelEst.C26_choice (List.replicate 301 (pressure "A" 1013) ++ List.replicate 100 (pressure "B" 1012) ++
        List.replicate m (pressure "B" 1012)) (pressure "B" 1012) (pressure "B" 1012)).2 with k | k
      · exact k
      · exact k.trans ih
  · intro m
    have hlen : 200 ≤ (pressuresOf ((List.replicate 299 (pressure "A" 1013)).map (fun c => (c.1, ofM c.2)) ++
        [((pressure "A" 1013).1, ofM (pressure "A" 1013).2)])).length := by
      rw [List.map_replicate, ← List.replicate_succ']
      exact (by norm_num : 200 ≤ 299).trans (rep_len 299 "A" 1013).ge
    have := C146_stuck ((List.replicate 299 (pressure "A" 1013)).map fun c => (c.1, ofM c.2))
      (by rw [List.map_replicate]; have := rep_ne (n := 299) (by norm_num) ((pressure "A" 1013).1, ofM (pressure "A" 1013).2) []; rwa [List.append_nil] at this)
      ((pressure "A" 1013).1, ofM (pressure "A" 1013).2) ("A", ⟨.BAROMETER, ⟨none, some 0, some 0⟩, 0⟩) hlen rfl rfl 1012
      ((List.replicate m (pressure "B" 1012)).map fun c => (c.1, ofM c.2))
      (by
        intro c hc _
        rw [List.map_replicate] at hc
        rw [List.eq_of_mem_replicate hc]
        rfl)
      ("B", ofM (pressure "B" 1012).2) (fun _ => rfl)
    rw [C146_numbers, same] at this
    rw [List.map_replicate, ← List.replicate_succ'] at this
    rw [List.map_replicate]
    exact this

end Verif.Nan
