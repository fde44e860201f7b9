import Verif.Fp.MeanProps

/-!
# C138: a window of whole strengths, and one of fractions
-/

namespace Verif.Fp

open Verif.Levels Verif.Radio
open Verif.Nav (Strongest meanRssi)

/-- **C138, no rounding.** Without rounding these are the averages of the other properties. -/
theorem C138_exact (l : List RadioMeasurement) : averageLoopF exact l = averageLoop l := by
  induction l using averageLoop.induct with
  | case1 => simp [averageLoop, averageLoopF]
  | case2 x xs ih => rw [averageLoop, averageLoopF, ih]; rfl

/-- A signal of a beacon. -/
noncomputable def beacon (id : String) (rssi : ℝ) : RadioMeasurement := ⟨⟨.BEACON, id, rssi, 0, 0, 0⟩, 1000⟩

variable {i j : String}

/-- A floor with two beacons. -/
noncomputable def twoBeacons (i j : String) : Level :=
  bareLevel "A" [⟨i, ⟨1, 1, 0⟩, ⟨-59, 10, 0⟩, .BEACON⟩, ⟨j, ⟨9, 9, 0⟩, ⟨-59, 10, 0⟩, .BEACON⟩]

theorem two_a (h : i < j) : (twoBeacons i j).transmitter i = some ⟨i, ⟨1, 1, 0⟩, ⟨-59, 10, 0⟩, .BEACON⟩ := by
  simp [twoBeacons, bareLevel, Level.addTransmitters, Level.transmitter, StdMap.insert, StdMap.insertSorted, StdMap.find?, h,
    h.not_gt, h.ne, h.ne']

theorem two_b (h : i < j) : (twoBeacons i j).transmitter j = some ⟨j, ⟨9, 9, 0⟩, ⟨-59, 10, 0⟩, .BEACON⟩ := by
  simp [twoBeacons, bareLevel, Level.addTransmitters, Level.transmitter, StdMap.insert, StdMap.insertSorted, StdMap.find?, h,
    h.not_gt, h.ne, h.ne']

/-- Whole strengths: three signals of one beacon, two of the other; the means are -61 and -60.5. -/
noncomputable def wholeWindow (i j : String) : List RadioMeasurement :=
  [beacon i (-60), beacon j (-60), beacon i (-62), beacon j (-61), beacon i (-61)]

theorem whole_window : WholeDbm (wholeWindow i j) where
  whole := by
    intro m hm
    simp only [wholeWindow, List.mem_cons, List.not_mem_nil, or_false] at hm
    rcases hm with rfl | rfl | rfl | rfl | rfl
    · exact ⟨-60, by norm_num [beacon], by norm_num⟩
    · exact ⟨-60, by norm_num [beacon], by norm_num⟩
    · exact ⟨-62, by norm_num [beacon], by norm_num⟩
    · exact ⟨-61, by norm_num [beacon], by norm_num⟩
    · exact ⟨-61, by norm_num [beacon], by norm_num⟩
  size := by norm_num [wholeWindow]

/-- The zone of these signals in floating point is that of the second beacon. -/
example (h : i < j) (A B : List (String × ℝ)) (ts : Int) : ∃ prec,
    Estim.zonePosition A B (twoBeacons i j) ts (averagesF nearest insertionSorts (wholeWindow i j)) =
      (.OK, ⟨9, 9, "A", prec, ts, false, .INDOOR, 0⟩) := by
  have hk : (wholeWindow i j).filter (fun m => ((twoBeacons i j).transmitter m.data.id).isSome) = wholeWindow i j := by
    simp [wholeWindow, beacon, two_a h, two_b h]
  obtain ⟨b, t, prec, r, h1, h2, h3, -⟩ :=
    (C138_zone nearest C137_nearest insertionSorts_lawful whole_window A B (twoBeacons i j) ts).2 (by rw [hk]; simp [wholeWindow])
  rw [hk] at h1
  obtain ⟨⟨m, hm, rfl⟩, h5⟩ := h1
  have hb : m.data.id = j := by
    have h6 := h5 (beacon j (-60)) (by simp [wholeWindow])
    simp only [wholeWindow, List.mem_cons, List.not_mem_nil, or_false] at hm
    have ma : meanRssi (wholeWindow i j) i = -61 := by
      simp [meanRssi, ofTransmitter, wholeWindow, beacon, mean, h.ne']; norm_num
    have mb : meanRssi (wholeWindow i j) j = -121 / 2 := by
      simp [meanRssi, ofTransmitter, wholeWindow, beacon, mean, h.ne]; norm_num
    rcases hm with rfl | rfl | rfl | rfl | rfl <;> simp only [beacon] at h6 ⊢ <;> rw [ma, mb] at h6 <;> norm_num at h6
  rw [hb, two_b h, Option.some.injEq] at h2
  subst h2
  exact ⟨prec, h3⟩

/-- The `double` nearest to -60.3. -/
noncomputable def frac : ℝ := -(8486470547826278 * (1 / 2 ^ 47))

theorem nearest_value_neg {x : ℝ} (e k : ℤ) (he : -1074 ≤ e) (h0 : (2 : ℝ) ^ (e + 52) ≤ x) (h1 : x < 2 ^ (e + 53))
    (hk0 : k - 1 / 2 < x / 2 ^ e) (hk1 : x / 2 ^ e ≤ k + 1 / 2) : nearest.rnd (-x) = -(k * 2 ^ e) := by
  have hx : 0 < x := (two_zpow_pos _).trans_le h0
  have hu : ulpExp (-x) = e := by
    have hlog : Int.log 2 x = e + 52 := by
      have a1 : e + 52 ≤ Int.log 2 x := by
        rw [← Int.zpow_le_iff_le_log (by norm_num) hx]; exact_mod_cast h0
      have a2 : Int.log 2 x < e + 53 := by
        rw [← Int.lt_zpow_iff_log_lt (by norm_num) hx]; exact_mod_cast h1
      omega
    unfold ulpExp
    rw [if_neg (neg_ne_zero.mpr hx.ne'), abs_neg, abs_of_pos hx, hlog, max_eq_left (by omega)]
    ring
  show (round (-x / 2 ^ ulpExp (-x)) : ℤ) * (2 : ℝ) ^ ulpExp (-x) = _
  rw [hu, round_eq, neg_div, (Int.floor_eq_iff (z := -k)).mpr ⟨by push_cast; linarith, by push_cast; linarith⟩]
  push_cast
  ring

theorem zp (n : ℕ) : (2 : ℝ) ^ (-(n : ℤ)) = 1 / 2 ^ n := by rw [zpow_neg, one_div]; norm_cast

theorem frac_nearest : nearest.rnd (-(603 / 10)) = frac := by
  have e47 := zp 47
  rw [nearest_value_neg (-47) 8486470547826278 (by norm_num) (by norm_num) (by norm_num) (by push_cast at e47; rw [e47]; norm_num)
    (by push_cast at e47; rw [e47]; norm_num)]
  push_cast at e47
  rw [e47]
  norm_num [frac]

theorem frac_fix : nearest.rnd frac = frac := by rw [← frac_nearest]; exact nearest.idem _

theorem frac_double : nearest.rnd (frac + frac) = frac + frac := by
  have h := C137_nearest (-8486470547826278) (-46) (by norm_num) (by norm_num)
  have e46 := zp 46
  push_cast at e46
  rw [e46] at h
  have e : frac + frac = ((-8486470547826278 : ℤ) : ℝ) * (1 / 2 ^ 46) := by norm_num [frac]
  rw [e]; exact h

theorem frac_triple : nearest.rnd (frac + frac + frac) = -(6364852910869708 * (1 / 2 ^ 45)) := by
  have e45 := zp 45
  push_cast at e45
  have e : frac + frac + frac = -(3 * (8486470547826278 * (1 / 2 ^ 47))) := by unfold frac; ring
  rw [e, nearest_value_neg (-45) 6364852910869708 (by norm_num) (by norm_num) (by norm_num) (by rw [e45]; norm_num)
    (by rw [e45]; norm_num), e45]
  norm_num

theorem frac_third : nearest.rnd (-(6364852910869708 * (1 / 2 ^ 45)) / 3) = -(8486470547826277 * (1 / 2 ^ 47)) := by
  have e47 := zp 47
  push_cast at e47
  rw [neg_div, nearest_value_neg (-47) 8486470547826277 (by norm_num) (by norm_num) (by norm_num) (by rw [e47]; norm_num)
    (by rw [e47]; norm_num), e47]
  norm_num

/-- **C138, witness.** Strengths with fractions: two beacons are heard at -60.3, one of them once, the other three times. The means
are equal, and the zone should be that of the smaller id; in floating point it is that of the other one. (The one addition that is
half way between two `double`s is rounded to the even one here, too.) -/
theorem C138_fraction_witness (h : i < j) (A B : List (String × ℝ)) (ts : Int) :
    let w := [beacon i frac, beacon j frac, beacon j frac, beacon j frac]
    Strongest w i ∧ ∃ prec, Estim.zonePosition A B (twoBeacons i j) ts (averagesF nearest insertionSorts w) =
      (.OK, ⟨9, 9, "A", prec, ts, false, .INDOOR, 0⟩) := by
  intro w
  have ma : meanRssi w i = frac := by simp [meanRssi, ofTransmitter, w, beacon, mean, h.ne, h.ne']
  have mb : meanRssi w j = frac := by simp [meanRssi, ofTransmitter, w, beacon, mean, h.ne, h.ne']; ring
  constructor
  · refine ⟨⟨beacon i frac, by simp [w], rfl⟩, ?_⟩
    intro m hm
    right
    simp only [w, List.mem_cons, List.not_mem_nil, or_false] at hm
    rcases hm with rfl | rfl | rfl | rfl <;> simp only [beacon] <;> simp [ma, mb, h.le]
  · have hsort : insertionSorts.byId w = w := by
      simp [insertionSorts, w, beacon, h, h.not_gt]
    have havg : averagesF nearest insertionSorts w =
        [⟨.BEACON, i, frac, 0, 0, 0⟩, ⟨.BEACON, j, -(8486470547826277 * (1 / 2 ^ 47)), 0, 0, 0⟩] := by
      unfold averagesF
      rw [hsort]
      have t1 : [beacon j frac, beacon j frac, beacon j frac].takeWhile (fun m => !decide (i < m.data.id)) = [] :=
        List.takeWhile_cons_of_neg (by simpa [beacon] using h)
      have t2 : [beacon j frac, beacon j frac, beacon j frac].dropWhile (fun m => !decide (i < m.data.id)) =
          [beacon j frac, beacon j frac, beacon j frac] := List.dropWhile_cons_of_neg (by simpa [beacon] using h)
      have hj : ∀ m ∈ [beacon j frac, beacon j frac], (!decide (j < m.data.id)) = true := by
        intro m hm
        have : m = beacon j frac := by simpa using hm
        rw [this, show (beacon j frac).data.id = j from rfl, decide_eq_false (lt_irrefl j)]
        rfl
      have hp : (!decide (j < (beacon j frac).data.id)) = true := hj _ (by simp)
      have t3 : [beacon j frac, beacon j frac].takeWhile (fun m => !decide (j < m.data.id)) = [beacon j frac, beacon j frac] := by
        rw [List.takeWhile_cons_of_pos (p := fun m : RadioMeasurement => !decide (j < m.data.id)) (a := beacon j frac) hp, List.takeWhile_cons_of_pos (p := fun m : RadioMeasurement => !decide (j < m.data.id)) (a := beacon j frac) hp, List.takeWhile_nil]
      have t4 : [beacon j frac, beacon j frac].dropWhile (fun m => !decide (j < m.data.id)) = [] := by
        rw [List.dropWhile_cons_of_pos (p := fun m : RadioMeasurement => !decide (j < m.data.id)) (a := beacon j frac) hp, List.dropWhile_cons_of_pos (p := fun m : RadioMeasurement => !decide (j < m.data.id)) (a := beacon j frac) hp, List.dropWhile_nil]
      have i1 : (beacon i frac).data.id = i := rfl
      have i2 : (beacon j frac).data.id = j := rfl
      simp only [w, averageLoopF, i1, i2, t1, t2, t3, t4]
      simp [averageRangeF, beacon, nearest.zero, frac_fix, frac_double, frac_triple, frac_third, divide_eq]
      have := frac_third
      simp only [one_div] at this
      exact this
    have hlt : frac < -(8486470547826277 * (1 / 2 ^ 47)) := by unfold frac; norm_num
    have ca : (twoBeacons i j).containsTransmitter i = true := by
      show ((twoBeacons i j).transmitter i).isSome = true
      rw [two_a h]; rfl
    have cb : (twoBeacons i j).containsTransmitter j = true := by
      show ((twoBeacons i j).transmitter j).isSome = true
      rw [two_b h]; rfl
    have hst : Estim.strongest (getLevelRadioMeasurements RadioData.id (twoBeacons i j)
        [⟨.BEACON, i, frac, 0, 0, 0⟩, ⟨.BEACON, j, -(8486470547826277 * (1 / 2 ^ 47)), 0, 0, 0⟩]) =
        some ⟨.BEACON, j, -(8486470547826277 * (1 / 2 ^ 47)), 0, 0, 0⟩ := by
      have hf : getLevelRadioMeasurements RadioData.id (twoBeacons i j)
          [⟨.BEACON, i, frac, 0, 0, 0⟩, ⟨.BEACON, j, -(8486470547826277 * (1 / 2 ^ 47)), 0, 0, 0⟩] =
          [⟨.BEACON, i, frac, 0, 0, 0⟩, ⟨.BEACON, j, -(8486470547826277 * (1 / 2 ^ 47)), 0, 0, 0⟩] := by
        simp [getLevelRadioMeasurements, ca, cb]
      rw [hf]
      simp only [Estim.strongest, List.foldl_cons, List.foldl_nil]
      rw [if_pos hlt]
    rw [havg]
    unfold Estim.zonePosition
    rw [if_neg (by simp), hst]
    simp only [two_b h, cb, if_true]
    exact ⟨_, rfl⟩

end Verif.Fp
