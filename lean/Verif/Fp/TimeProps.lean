import Verif.Fp.TimeModel
import Verif.Fp.KnnLemmas
import Verif.Fp.MeanExample
import Verif.Smooth.TimeProps

/-!
# C159: the time smoother in floating point
-/

namespace Verif.Fp

open Verif Verif.Smooth

variable (R : Rounding)

/-- The object after a history of calls. -/
noncomputable def timeRunF (calls : List TimeCall) : TimeState :=
  calls.foldl (fun s c => (timeSmoothF R s c.1 c.2).2) timeInit

/-- The answer to a call after a history. -/
noncomputable def timeAnswerF (calls : List TimeCall) (last : Position) (cur : Int) : Position :=
  (timeSmoothF R (timeRunF R calls) last cur).1

theorem timeSmoothF_state (s : TimeState) (last : Position) (cur : Int) : (timeSmoothF R s last cur).2 = (timeSmooth s last cur).2 := by
  unfold timeSmoothF timeSmooth
  dsimp only
  split_ifs <;> rfl

/-- **C159.** Rounding errors do not add up: what the smoother keeps is free of them after every history. -/
theorem C159_kept (calls : List TimeCall) : timeRunF R calls = timeRun calls := by
  unfold timeRunF timeRun
  congr 1
  funext s c
  exact timeSmoothF_state R s c.1 c.2

theorem timeMean_near (hR : Binary R) {n p M : ℝ} {a k : ℤ} (ha : 0 ≤ a) (hak : a ≤ k) (hk0 : 1 ≤ k) (hk : k ≤ 2 ^ 53) (hM : 1 ≤ M)
    (hn : |n| ≤ M) (hp : |p| ≤ M) :
    |timeMeanF R n p a k - (n * a + p * (k - a)) / k| ≤ 2 / 10 ^ 15 * M := by
  have hk' : (1 : ℝ) ≤ k := by exact_mod_cast hk0
  have hak' : (a : ℝ) ≤ k := by exact_mod_cast hak
  have ha' : (0 : ℝ) ≤ a := by exact_mod_cast ha
  have hkr : R.rnd (k : ℝ) = k := rnd_int R hR (by rw [abs_of_nonneg (by omega)]; exact hk)
  have hd : R.rnd ((k : ℝ) - a) = k - a := by
    have := rnd_int R hR (n := k - a) (by rw [abs_of_nonneg (by omega)]; omega)
    push_cast at this
    exact this
  have h := mean_round R (w1 := a) (w2 := (k : ℝ) - a) (w3 := 0) (c1 := n) (c2 := p) (c3 := 0) ha' (sub_nonneg.mpr hak') le_rfl
    (by linarith) hM hn hp (by rw [abs_zero]; linarith)
  have e : meanF R a ((k : ℝ) - a) 0 n p 0 (R.rnd (R.rnd (a + ((k : ℝ) - a)) + 0)) = timeMeanF R n p a k := by
    unfold meanF timeMeanF
    rw [mul_zero, R.zero, add_zero, add_zero, add_sub_cancel, hkr, hkr, R.idem, hd, mul_comm (a : ℝ) n, mul_comm ((k : ℝ) - a) p]
  rw [e] at h
  have e2 : ((a : ℝ) * n + ((k : ℝ) - a) * p + 0 * 0) / (a + ((k : ℝ) - a) + 0) = (n * a + p * (k - a)) / k := by
    congr 1 <;> ring
  rw [e2] at h
  exact h

/-- **C159.** When the known positions come in the order of their times, the answer is the exact one up to 2·10⁻¹⁵ of the coordinates; level,
time and all else are the same. -/
theorem C159_answer (hR : Binary R) (calls : List TimeCall) (last : Position) (cur : Int) {M : ℝ} (hM : 1 ≤ M)
    (hk : ∀ p ∈ known calls ++ [last], p.isEmpty = false ∧ p.levelId ≠ "")
    (hord : (known calls ++ [last]).Pairwise (fun p q => p.ts ≤ q.ts))
    (hbox : ∀ p ∈ known calls ++ [last], |p.x| ≤ M ∧ |p.y| ≤ M)
    (hts : ∀ p ∈ known calls ++ [last], |p.ts| ≤ 2 ^ 51) (hcur : |cur| ≤ 2 ^ 51) :
    let exact := timeAnswer calls last cur
    let rounded := timeAnswerF R calls last cur
    rounded = { exact with x := rounded.x, y := rounded.y } ∧
    |rounded.x - exact.x| ≤ 2 / 10 ^ 15 * M ∧ |rounded.y - exact.y| ≤ 2 / 10 ^ 15 * M := by
  intro exact rounded
  have hsame : rounded = exact → _ := fun (h : rounded = exact) =>
    (show rounded = { exact with x := rounded.x, y := rounded.y } ∧
      |rounded.x - exact.x| ≤ 2 / 10 ^ 15 * M ∧ |rounded.y - exact.y| ≤ 2 / 10 ^ 15 * M by
      rw [h, sub_self, sub_self, abs_zero]
      exact ⟨rfl, by positivity, by positivity⟩)
  have hr : rounded = (timeSmoothF R (timeRun calls) last cur).1 := by
    show timeAnswerF R calls last cur = _
    unfold timeAnswerF
    rw [C159_kept]
  have hex : exact = (timeSmooth (timeRun calls) last cur).1 := rfl
  by_cases h1 : cur < last.ts
  · apply hsame
    rw [hr, hex]; unfold timeSmoothF timeSmooth; rw [if_pos h1, if_pos h1]
  by_cases h2 : (timeRun calls).prev.levelId ≠ last.levelId ∨ (timeRun calls).next.levelId ≠ last.levelId
  · apply hsame
    rw [hr, hex]; unfold timeSmoothF timeSmooth; rw [if_neg h1, if_neg h1, if_pos h2, if_pos h2]
  by_cases h3 : (timeRun calls).prev.isEmpty ∨ (timeRun calls).next.isEmpty ∨ last.isEmpty
  · apply hsame
    rw [hr, hex]; unfold timeSmoothF timeSmooth; rw [if_neg h1, if_neg h1, if_neg h2, if_neg h2, if_pos h3, if_pos h3]
  have hord' := hord
  rw [List.pairwise_append] at hord
  obtain ⟨i1, i2⟩ := time_inv calls (fun p hp => hk p (List.mem_append_left _ hp)) hord.1
  obtain ⟨hI, -, hn⟩ := time_step calls last cur (not_lt.mp h1) (fun p hp => (hk p (List.mem_append_left _ hp)).1)
    (hk last (by simp)).1 (hk last (by simp)).2 (fun p hp => hord.2.2 p hp last (by simp)) i1 i2
  have es : (timeSmooth (timeRun calls) last cur).2 = if last.ts > (timeRun calls).next.ts then ⟨(timeRun calls).next, last⟩ else timeRun calls := by
    unfold timeSmooth; rw [if_neg h1, if_neg h2, if_neg h3]
  have e1 : exact = timeInterpolate (timeSmooth (timeRun calls) last cur).2 last cur := by
    rw [hex, es]; unfold timeSmooth; rw [if_neg h1, if_neg h2, if_neg h3]
  have e2 : rounded = timeInterpolateF R (timeSmooth (timeRun calls) last cur).2 last cur := by
    rw [hr, es]; unfold timeSmoothF; rw [if_neg h1, if_neg h2, if_neg h3]
  clear_value exact rounded
  generalize (timeSmooth (timeRun calls) last cur).2 = s at hI hn e1 e2
  rw [timeInterpolate_eq] at e1
  unfold timeInterpolateF at e2
  by_cases heq : s.next.ts = s.prev.ts
  · rw [if_pos heq] at e1 e2
    exact hsame (e2.trans e1.symm)
  rw [if_neg heq] at e1 e2
  have hnm := levelRun_mem _ _ hI.next
  have hpm := levelRun_mem _ _ hI.prev
  have tn := abs_le.mp (hts _ hnm)
  have tp := abs_le.mp (hts _ hpm)
  have tc := abs_le.mp hcur
  have hlt : s.prev.ts < s.next.ts := lt_of_le_of_ne hI.order (Ne.symm heq)
  have ra : R.rnd ((cur - s.next.ts : Int) : ℝ) = ((cur - s.next.ts : Int) : ℝ) := rnd_int R hR (by rw [abs_le]; omega)
  have rk : R.rnd ((s.next.ts - s.prev.ts : Int) : ℝ) = ((s.next.ts - s.prev.ts : Int) : ℝ) := rnd_int R hR (by rw [abs_le]; omega)
  rw [ra, rk] at e2
  dsimp only at e1 e2
  by_cases hgt : ((cur - s.next.ts : Int) : ℝ) > ((s.next.ts - s.prev.ts : Int) : ℝ)
  · rw [if_pos hgt] at e1 e2
    exact hsame (e2.trans e1.symm)
  rw [if_neg hgt] at e1 e2
  have hle : cur - s.next.ts ≤ s.next.ts - s.prev.ts := by exact_mod_cast not_lt.mp hgt
  rw [e1, e2]
  refine ⟨rfl, ?_, ?_⟩
  · exact timeMean_near R hR (by omega) hle (by omega) (by omega) hM (hbox _ hnm).1 (hbox _ hpm).1
  · exact timeMean_near R hR (by omega) hle (by omega) (by omega) hM (hbox _ hnm).2 (hbox _ hpm).2

/-- **C159, witness.** The answer need not lie on the segment: a device known to be at 0.07 m at 0 s and at 1 s is shown a little further at
1.1 s. In exact arithmetic it is shown where it is. -/
theorem C159_off :
    let v := nearest.rnd (7 / 100)
    let pos : Int → Position := fun ts => ⟨v, 0, "1", 1, ts, false, .INDOOR, 0⟩
    let calls := [(pos 0, 0), (pos 1000, (1000 : Int))]
    (timeAnswer calls (pos 1000) 1100).x = v ∧ v < (timeAnswerF nearest calls (pos 1000) 1100).x := by
  intro v pos calls
  have e50 := zp 50
  have e47 := zp 47
  have e46 := zp 46
  have e56 := zp 56
  push_cast at e50 e47 e46 e56
  have hv : v = 5044031582654956 * (1 / 2 ^ 56) := by
    show nearest.rnd (7 / 100) = _
    rw [nearest_value (-56) 5044031582654956 (by norm_num) (by norm_num) (by norm_num) (by rw [e56]; norm_num)
      (by rw [e56]; norm_num), e56]
    norm_num
  have hrun : timeRun calls = ⟨pos 0, pos 1000⟩ := by
    simp only [timeRun, List.foldl_cons, List.foldl_nil, calls]
    have h1 : (timeSmooth timeInit (pos 0) 0).2 = ⟨pos 0, pos 0⟩ := by
      simp [timeSmooth, timeInit, Position.default, pos]
    rw [h1]
    simp [timeSmooth, pos]
  constructor
  · unfold timeAnswer
    rw [hrun]
    simp [timeSmooth, timeInterpolate_eq, pos]
    ring_nf
    norm_num
  · unfold timeAnswerF
    rw [C159_kept, hrun]
    have r100 : nearest.rnd 100 = 100 := by
      have := rnd_int nearest C137_nearest (n := 100) (by norm_num)
      exact_mod_cast this
    have r900 : nearest.rnd 900 = 900 := by
      have := rnd_int nearest C137_nearest (n := 900) (by norm_num)
      exact_mod_cast this
    have r1000 : nearest.rnd 1000 = 1000 := by
      have := rnd_int nearest C137_nearest (n := 1000) (by norm_num)
      exact_mod_cast this
    have h : (timeSmoothF nearest ⟨pos 0, pos 1000⟩ (pos 1000) 1100).1.x = timeMeanF nearest v v 100 1000 := by
      simp [timeSmoothF, timeInterpolateF, pos]
      norm_num [r100, r1000]
    rw [h]
    unfold timeMeanF
    rw [show (1000 : ℝ) - 100 = 900 by norm_num, r900, divide_eq (by norm_num), hv]
    have a1 : nearest.rnd (5044031582654956 * (1 / 2 ^ 56) * 100) = 7881299347898369 * (1 / 2 ^ 50) := by
      rw [nearest_value (-50) 7881299347898369 (by norm_num) (by norm_num) (by norm_num) (by rw [e50]; norm_num)
        (by rw [e50]; norm_num), e50]
      norm_num
    have a2 : nearest.rnd (5044031582654956 * (1 / 2 ^ 56) * 900) = 8866461766385665 * (1 / 2 ^ 47) := by
      rw [nearest_value (-47) 8866461766385665 (by norm_num) (by norm_num) (by norm_num) (by rw [e47]; norm_num)
        (by rw [e47]; norm_num), e47]
      norm_num
    rw [a1, a2]
    have a3 : nearest.rnd (7881299347898369 * (1 / 2 ^ 50) + 8866461766385665 * (1 / 2 ^ 47)) = 4925812092436481 * (1 / 2 ^ 46) := by
      rw [nearest_value (-46) 4925812092436481 (by norm_num) (by norm_num) (by norm_num) (by rw [e46]; norm_num)
        (by rw [e46]; norm_num), e46]
      norm_num
    rw [a3]
    have a4 : nearest.rnd (4925812092436481 * (1 / 2 ^ 46) / 1000) = 5044031582654957 * (1 / 2 ^ 56) := by
      rw [nearest_value (-56) 5044031582654957 (by norm_num) (by norm_num) (by norm_num) (by rw [e56]; norm_num)
        (by rw [e56]; norm_num), e56]
      norm_num
    rw [a4]
    norm_num

/-- The hypotheses of `C159_answer` are met: a walk of ten metres in a second, asked for half a second later. -/
example :
    let pos : ℝ → Int → Position := fun x ts => ⟨x, 0, "1", 1, ts, false, .INDOOR, 0⟩
    let calls := [(pos 0 1000, 1000), (pos 10 2000, (2000 : Int))]
    |(timeAnswerF nearest calls (pos 10 2000) 2500).x - (timeAnswer calls (pos 10 2000) 2500).x| ≤ 2 / 10 ^ 15 * 10 := by
  intro pos calls
  have hkn : known calls = [pos 0 1000, pos 10 2000] := by simp [known, calls, pos]
  refine (C159_answer nearest C137_nearest calls (pos 10 2000) 2500 (M := 10) (by norm_num) ?_ ?_ ?_ ?_ (by norm_num)).2.1
  · rw [hkn]; simp [pos]
  · rw [hkn]; simp [pos]
  · rw [hkn]; intro p hp; simp at hp; rcases hp with rfl | rfl <;> norm_num [pos]
  · rw [hkn]; intro p hp; simp at hp; rcases hp with rfl | rfl <;> norm_num [pos]

end Verif.Fp
