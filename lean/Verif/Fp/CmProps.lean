import Verif.Fp.CmSpec
import Verif.Fp.GeoProps

/-!
# Property theorems for C137: rounding down to centimetres in floating point
-/

namespace Verif.Fp

open Verif.Levels Verif.Post

variable (R : Rounding)

theorem rnd_int (hR : Binary R) {n : ℤ} (h : |n| ≤ 2 ^ 53) : R.rnd n = n := by
  have := hR n 0 h (by norm_num)
  simpa using this

theorem rnd_quarter (hR : Binary R) {n : ℤ} (h : |n| ≤ 2 ^ 53) : R.rnd (n / 4) = n / 4 := by
  have := hR n (-2) h (by norm_num)
  have e : (2 : ℝ) ^ (-2 : ℤ) = 1 / 4 := by norm_num [zpow_neg]
  rw [e] at this
  rw [div_eq_mul_one_div]
  exact this

theorem tiny_le20 : tiny ≤ 1 / 10 ^ 20 :=
  tiny_le.trans (one_div_le_one_div_of_le (by norm_num) (pow_le_pow_right₀ (by norm_num) (by norm_num)))

theorem u_eq : u = 1 / 2 ^ 53 := by unfold u; rw [zpow_neg, one_div]; norm_cast

theorem rnd_bound (x B : ℝ) (h : |x| ≤ B) : |R.rnd x - x| ≤ u * B + tiny :=
  (R.near x).trans (by have := mul_le_mul_of_nonneg_left h (show 0 ≤ u by unfold u; positivity); linarith)

/-- Whole centimetres, as a number of metres, back to centimetres. -/
noncomputable def again (j : ℤ) : ℤ := centimetres R (R.rnd (j / 100))

theorem centimetres_mono : Monotone (centimetres R) := fun _ _ h =>
  Int.floor_mono (R.mono (mul_le_mul_of_nonneg_right h (by norm_num)))

theorem again_mono : Monotone (again R) := fun _ _ h =>
  centimetres_mono R (R.mono (div_le_div_of_nonneg_right (by exact_mod_cast h) (by norm_num)))

theorem again_near {j : ℤ} (h : |j| ≤ 10 ^ 9) : |R.rnd (R.rnd (j / 100) * 100) - j| ≤ 1 / 10 ^ 6 := by
  have hj : |(j : ℝ)| ≤ 10 ^ 9 := by exact_mod_cast h
  have h1 := rnd_bound R ((j : ℝ) / 100) (10 ^ 7) (by rw [abs_div, abs_of_pos (by norm_num : (0 : ℝ) < 100)]; linarith)
  have ht := tiny_le20
  rw [u_eq] at h1
  have h1' : |R.rnd (j / 100) - j / 100| ≤ 2 / 10 ^ 9 := h1.trans (by
    have : (1 : ℝ) / 2 ^ 53 * 10 ^ 7 ≤ 1.2 / 10 ^ 9 := by norm_num
    have : (1 : ℝ) / 10 ^ 20 ≤ 0.1 / 10 ^ 9 := by norm_num
    linarith)
  have h2 : |R.rnd (j / 100) * 100 - j| ≤ 2 / 10 ^ 7 := by
    have : R.rnd (j / 100) * 100 - j = (R.rnd (j / 100) - j / 100) * 100 := by ring
    rw [this, abs_mul, abs_of_pos (by norm_num : (0 : ℝ) < 100)]
    linarith
  have h3 : |R.rnd (j / 100) * 100| ≤ 2 * 10 ^ 9 := by
    have e := abs_sub_abs_le_abs_sub (R.rnd (j / 100) * 100) j
    linarith
  have h4 := rnd_bound R _ _ h3
  rw [u_eq] at h4
  have h4' : |R.rnd (R.rnd (j / 100) * 100) - R.rnd (j / 100) * 100| ≤ 3 / 10 ^ 7 := h4.trans (by
    have : (1 : ℝ) / 2 ^ 53 * (2 * 10 ^ 9) ≤ 2.9 / 10 ^ 7 := by norm_num
    have : (1 : ℝ) / 10 ^ 20 ≤ 0.1 / 10 ^ 7 := by norm_num
    linarith)
  have h5 := abs_sub_le (R.rnd (R.rnd (j / 100) * 100)) (R.rnd (j / 100) * 100) j
  have : (2 : ℝ) / 10 ^ 7 + 3 / 10 ^ 7 ≤ 1 / 10 ^ 6 := by norm_num
  linarith

/-- One more rounding loses nothing or one centimetre. -/
theorem again_cases {j : ℤ} (h : |j| ≤ 10 ^ 9) : again R j = j ∨ again R j = j - 1 := by
  have h1 := again_near R h
  rw [abs_le] at h1
  have h2 : j - 1 ≤ again R j := by
    unfold again centimetres
    rw [Int.le_floor]
    push_cast
    linarith [h1.1, show (1 : ℝ) / 10 ^ 6 ≤ 1 by norm_num]
  have h3 : again R j < j + 1 := by
    unfold again centimetres
    rw [Int.floor_lt]
    push_cast
    linarith [h1.2, show (1 : ℝ) / 10 ^ 6 < 1 by norm_num]
  omega

/-- Whole quarters of a metre are kept. -/
theorem again_quarter (hR : Binary R) {j : ℤ} (h : |j| ≤ 10 ^ 9) (hd : 25 ∣ j) : again R j = j := by
  obtain ⟨m, rfl⟩ := hd
  have hm : |m| ≤ 2 ^ 53 := by
    rw [abs_mul] at h
    norm_num at h ⊢
    linarith [abs_nonneg m]
  have e1 : ((25 * m : ℤ) : ℝ) / 100 = m / 4 := by push_cast; ring
  unfold again centimetres
  rw [e1, rnd_quarter R hR hm]
  have e2 : (m : ℝ) / 4 * 100 = ((25 * m : ℤ) : ℝ) := by push_cast; ring
  rw [e2, rnd_int R hR (h.trans (by norm_num)), Int.floor_intCast]

theorem again_le {j : ℤ} (h : |j| ≤ 10 ^ 9) : again R j ≤ j := by
  rcases again_cases R h with h | h <;> omega

theorem again_floor (hR : Binary R) {j : ℤ} (h : |j| ≤ 10 ^ 9) : 25 * (j / 25) ≤ again R j := by
  rw [abs_le] at h
  have h1 : |25 * (j / 25)| ≤ 10 ^ 9 := by rw [abs_le]; omega
  rw [← again_quarter R hR h1 (dvd_mul_right _ _)]
  exact again_mono R (by omega)

theorem centimetres_int (hR : Binary R) {v : ℝ} {n : ℤ} (h : |n| ≤ 10 ^ 10) (hv : (n : ℝ) ≤ v * 100) : n ≤ centimetres R v := by
  unfold centimetres
  rw [Int.le_floor, ← rnd_int R hR (h.trans (by norm_num))]
  exact R.mono hv

theorem centimetres_int' (hR : Binary R) {v : ℝ} {n : ℤ} (h : |n| ≤ 10 ^ 10) (hv : v * 100 ≤ (n : ℝ)) : centimetres R v ≤ n := by
  unfold centimetres
  have : R.rnd (v * 100) ≤ (n : ℝ) := by
    rw [← rnd_int R hR (h.trans (by norm_num))]
    exact R.mono hv
  have h2 := (Int.floor_le (R.rnd (v * 100))).trans this
  exact_mod_cast h2

theorem centimetres_range (hR : Binary R) {v : ℝ} (h0 : -(9 * 10 ^ 6) ≤ v) (h1 : v ≤ 9 * 10 ^ 6) : |centimetres R v| ≤ 10 ^ 9 := by
  rw [abs_le]
  constructor
  · refine centimetres_int R hR (by norm_num) ?_
    push_cast
    linarith
  · refine centimetres_int' R hR (by norm_num) ?_
    push_cast
    linarith

/-- The centimetres after one message that holds. -/
noncomputable def hold (lo hi : ℝ) (j : ℤ) : ℤ := centimetres R (min (max (R.rnd (j / 100)) lo) hi)

theorem hold_eq (lo hi : ℝ) (j : ℤ) : hold R lo hi j = min (max (again R j) (centimetres R lo)) (centimetres R hi) := by
  unfold hold again
  rw [(centimetres_mono R).map_min, (centimetres_mono R).map_max]

/-- What holds of the centimetres shown on a floor. -/
structure Good (lo hi : ℝ) (j : ℤ) : Prop where
  range : |j| ≤ 10 ^ 9
  lo_le : centimetres R lo ≤ j
  le_hi : j ≤ centimetres R hi

theorem good_fit (hR : Binary R) {lo hi : ℝ} (h : lo ≤ hi) (h0 : -(9 * 10 ^ 6) ≤ lo) (h1 : hi ≤ 9 * 10 ^ 6) (v : ℝ) :
    Good R lo hi (centimetres R (min (max v lo) hi)) where
  range := centimetres_range R hR (h0.trans (le_min (le_max_right _ _) h)) ((min_le_right _ _).trans h1)
  lo_le := centimetres_mono R (le_min (le_max_right _ _) h)
  le_hi := centimetres_mono R (min_le_right _ _)

theorem hold_step (hR : Binary R) {lo hi : ℝ} {j : ℤ} (hj : Good R lo hi j) :
    (hold R lo hi j = j ∨ hold R lo hi j = j - 1) ∧ 25 * (j / 25) ≤ hold R lo hi j := by
  rw [hold_eq]
  have h1 := again_cases R hj.range
  have h2 := again_floor R hR hj.range
  have h3 := hj.lo_le
  have h4 := hj.le_hi
  omega

theorem good_hold (hR : Binary R) {lo hi : ℝ} (h : lo ≤ hi) (h0 : -(9 * 10 ^ 6) ≤ lo) (h1 : hi ≤ 9 * 10 ^ 6) {j : ℤ} :
    Good R lo hi (hold R lo hi j) := good_fit R hR h h0 h1 _

theorem iterate_good (hR : Binary R) {lo hi : ℝ} (h : lo ≤ hi) (h0 : -(9 * 10 ^ 6) ≤ lo) (h1 : hi ≤ 9 * 10 ^ 6) {j : ℤ}
    (hj : Good R lo hi j) (n : ℕ) : Good R lo hi ((hold R lo hi)^[n] j) := by
  cases n with
  | zero => exact hj
  | succ n => rw [Function.iterate_succ_apply']; exact good_hold R hR h h0 h1

theorem iterate_bounds (hR : Binary R) {lo hi : ℝ} (h : lo ≤ hi) (h0 : -(9 * 10 ^ 6) ≤ lo) (h1 : hi ≤ 9 * 10 ^ 6) {j : ℤ}
    (hj : Good R lo hi j) (n : ℕ) :
    j - n ≤ (hold R lo hi)^[n] j ∧ (hold R lo hi)^[n] j ≤ j ∧ 25 * (j / 25) ≤ (hold R lo hi)^[n] j := by
  induction n with
  | zero => simp only [Function.iterate_zero, id]; omega
  | succ n ih =>
    have h2 := hold_step R hR (iterate_good R hR h h0 h1 hj n)
    rw [Function.iterate_succ_apply']
    push_cast
    omega

/-- After 24 messages nothing moves any more. -/
theorem iterate_rest (hR : Binary R) {lo hi : ℝ} (h : lo ≤ hi) (h0 : -(9 * 10 ^ 6) ≤ lo) (h1 : hi ≤ 9 * 10 ^ 6) {j : ℤ}
    (hj : Good R lo hi j) (n : ℕ) : (hold R lo hi)^[24 + n] j = (hold R lo hi)^[24] j := by
  have key : ∀ n, (hold R lo hi)^[n + 1] j = (hold R lo hi)^[n] j ∨ (hold R lo hi)^[n] j = j - n := by
    intro n
    induction n with
    | zero => right; simp
    | succ n ih =>
      rcases ih with ih | ih
      · left
        rw [Function.iterate_succ_apply' _ (n + 1), ih]
        exact (Function.iterate_succ_apply' _ n j).symm.trans ih
      · rcases (hold_step R hR (iterate_good R hR h h0 h1 hj n)).1 with h2 | h2
        · left
          have e : (hold R lo hi)^[n + 1] j = (hold R lo hi)^[n] j := by rw [Function.iterate_succ_apply', h2]
          rw [Function.iterate_succ_apply', e, h2]
        · right
          rw [Function.iterate_succ_apply', h2, ih]
          push_cast
          ring
  have rest : (hold R lo hi)^[24 + 1] j = (hold R lo hi)^[24] j := by
    rcases key 24 with h2 | h2
    · exact h2
    · have h3 := iterate_bounds R hR h h0 h1 hj 24
      have h4 := hold_step R hR (iterate_good R hR h h0 h1 hj 24)
      rw [Function.iterate_succ_apply']
      push_cast at h2
      rw [h2] at h3 h4 ⊢
      omega
  induction n with
  | zero => rfl
  | succ n ih =>
    rw [← add_assoc, Function.iterate_succ_apply', ih, ← rest]
    conv_rhs => rw [Function.iterate_succ_apply', ← rest]

/-! ### The calls -/

theorem accepted_eq {cs : CommonSettings} {lv : Level} {c : Call} (h : Accepted R cs lv c) (s : PostState) :
    processedF R cs s c.fused c.ts c.motion lv =
      let s' := takeOverF R cs (if c.motion > 0 then { s with lastStepTs := c.motion } else s) c.fused c.ts
      let out := fitInBoxF R lv.geometry.boundingBox s'.lastOut
      (out, { s' with lastOut := out }) := by
  unfold processedF
  dsimp only
  rw [if_neg (by simp [h.known]), if_neg (not_not.mpr h.inside), if_neg (not_le.mpr h.fresh)]

theorem fitF_whole (lo hi v : ℝ) : Whole R (fitF R lo hi v) (centimetres R (min (max v lo) hi)) := rfl

theorem quiet_eq {cs : CommonSettings} (hu : cs.useStops = true) {lv : Level} {s : PostState} {c : Call}
    (h : Quiet R cs lv s.lastStepTs s.lastExtractionTs s.lastOut c) :
    processedF R cs s c.fused c.ts c.motion lv =
      let out := fitInBoxF R lv.geometry.boundingBox { s.lastOut with ts := c.ts }
      (out, { s with lastOut := out }) := by
  rw [accepted_eq R h.accepted, if_neg (not_lt.mpr h.noStep)]
  have h1 : stopDetectedF R cs s c.ts := ⟨h.stepped, h.still⟩
  have h2 : ¬ (c.ts - s.lastExtractionTs > millisF R cs.stopUpdateTime ∧
      getDistF R s.lastOut.x s.lastOut.y c.fused.x c.fused.y < cs.useStopsDistanceThresholdM) := by
    rintro ⟨a, b⟩
    rcases h.kept with k | k
    · omega
    · exact absurd b (not_lt.mpr k)
  unfold takeOverF
  dsimp only
  rw [if_pos ⟨hu, h1⟩, if_neg h2]

theorem shown_after {cs : CommonSettings} {lv : Level} {c : Call} (h : Accepted R cs lv c) {s s' : PostState} {p : Position}
    (hp : processedF R cs s c.fused c.ts c.motion lv = (p, s')) :
    s'.lastOut = p ∧ ∃ v w, p.x = fitF R lv.geometry.boundingBox.minCorner.x lv.geometry.boundingBox.maxCorner.x v ∧
      p.y = fitF R lv.geometry.boundingBox.minCorner.y lv.geometry.boundingBox.maxCorner.y w := by
  rw [accepted_eq R h] at hp
  dsimp only at hp
  rw [Prod.mk.injEq] at hp
  obtain ⟨rfl, rfl⟩ := hp
  exact ⟨rfl, _, _, rfl, rfl⟩

theorem calls_quiet {cs : CommonSettings} (hu : cs.useStops = true) {lv : Level} (l : List Call) :
    ∀ (s : PostState) (j k : ℤ), Whole R s.lastOut.x j → Whole R s.lastOut.y k →
    AllQuiet R cs lv s.lastStepTs s.lastExtractionTs s.lastOut l (callsF R cs lv s l).1 →
    ∀ (n : ℕ) (q : Position), (callsF R cs lv s l).1[n]? = some q →
      q.isEmpty = s.lastOut.isEmpty ∧ q.levelId = s.lastOut.levelId ∧
      Whole R q.x ((hold R lv.geometry.boundingBox.minCorner.x lv.geometry.boundingBox.maxCorner.x)^[n + 1] j) ∧
      Whole R q.y ((hold R lv.geometry.boundingBox.minCorner.y lv.geometry.boundingBox.maxCorner.y)^[n + 1] k) := by
  induction l with
  | nil => intro s j k hx hy hq n q h; simp [callsF] at h
  | cons c l ih =>
    intro s j k hx hy hq n q h
    have h1 := hq.1
    have h2 := hq.2
    rw [show callsF R cs lv s (c :: l) = (let r := processedF R cs s c.fused c.ts c.motion lv
      let rest := callsF R cs lv r.2 l
      (r.1 :: rest.1, rest.2)) from rfl, quiet_eq R hu h1] at h
    rw [quiet_eq R hu h1] at h2
    dsimp only at h h2
    have hx' : Whole R (fitF R lv.geometry.boundingBox.minCorner.x lv.geometry.boundingBox.maxCorner.x s.lastOut.x)
        (hold R lv.geometry.boundingBox.minCorner.x lv.geometry.boundingBox.maxCorner.x j) := by
      rw [show s.lastOut.x = R.rnd (j / 100) from hx]; rfl
    have hy' : Whole R (fitF R lv.geometry.boundingBox.minCorner.y lv.geometry.boundingBox.maxCorner.y s.lastOut.y)
        (hold R lv.geometry.boundingBox.minCorner.y lv.geometry.boundingBox.maxCorner.y k) := by
      rw [show s.lastOut.y = R.rnd (k / 100) from hy]; rfl
    cases n with
    | zero =>
      simp only [List.getElem?_cons_zero, Option.some.injEq] at h
      subst h
      exact ⟨rfl, rfl, hx', hy'⟩
    | succ n =>
      rw [List.getElem?_cons_succ] at h
      obtain ⟨a1, a2, a3, a4⟩ := ih _ _ _ hx' hy' h2 n q h
      rw [Function.iterate_succ_apply _ (n + 1), Function.iterate_succ_apply _ (n + 1)]
      exact ⟨a1, a2, a3, a4⟩

/-- **C137, creep.** While the user stands still and the shown place has to stay as it is, every message may move it down by a
centimetre in each coordinate, never up, never below the last whole quarter of a metre. -/
theorem C137_creep (hR : Binary R) {cs : CommonSettings} (hu : cs.useStops = true) {lv : Level} (hb : Sane lv.geometry.boundingBox)
    {s0 s : PostState} {c0 : Call} {p : Position} (hc : Accepted R cs lv c0)
    (hp : processedF R cs s0 c0.fused c0.ts c0.motion lv = (p, s)) (l : List Call)
    (hq : AllQuiet R cs lv s.lastStepTs s.lastExtractionTs p l (callsF R cs lv s l).1) (n : ℕ) {q : Position}
    (hn : (callsF R cs lv s l).1[n]? = some q) :
    q.isEmpty = p.isEmpty ∧ q.levelId = p.levelId ∧ Crept R (n + 1) p.x q.x ∧ Crept R (n + 1) p.y q.y := by
  obtain ⟨rfl, v, w, hv, hw⟩ := shown_after R hc hp
  have gx := good_fit R hR hb.x hb.x0 hb.x1 v
  have gy := good_fit R hR hb.y hb.y0 hb.y1 w
  obtain ⟨a1, a2, a3, a4⟩ := calls_quiet R hu l s _ _ (hv.trans (fitF_whole R _ _ v)) (hw.trans (fitF_whole R _ _ w)) hq n q hn
  exact ⟨a1, a2, ⟨_, _, hv.trans (fitF_whole R _ _ v), a3, iterate_bounds R hR hb.x hb.x0 hb.x1 gx (n + 1)⟩,
    ⟨_, _, hw.trans (fitF_whole R _ _ w), a4, iterate_bounds R hR hb.y hb.y0 hb.y1 gy (n + 1)⟩⟩

/-- **C137, rest.** From the 24th such message on the shown place does not move any more. -/
theorem C137_rest (hR : Binary R) {cs : CommonSettings} (hu : cs.useStops = true) {lv : Level} (hb : Sane lv.geometry.boundingBox)
    {s0 s : PostState} {c0 : Call} {p : Position} (hc : Accepted R cs lv c0)
    (hp : processedF R cs s0 c0.fused c0.ts c0.motion lv = (p, s)) (l : List Call)
    (hq : AllQuiet R cs lv s.lastStepTs s.lastExtractionTs p l (callsF R cs lv s l).1) {n m : ℕ} (h24 : 23 ≤ n) (hm : 23 ≤ m)
    {q q' : Position} (hn : (callsF R cs lv s l).1[n]? = some q) (hn' : (callsF R cs lv s l).1[m]? = some q') :
    q.x = q'.x ∧ q.y = q'.y := by
  obtain ⟨rfl, v, w, hv, hw⟩ := shown_after R hc hp
  have gx := good_fit R hR hb.x hb.x0 hb.x1 v
  have gy := good_fit R hR hb.y hb.y0 hb.y1 w
  have all := calls_quiet R hu l s _ _ (hv.trans (fitF_whole R _ _ v)) (hw.trans (fitF_whole R _ _ w)) hq
  obtain ⟨-, -, a3, a4⟩ := all n q hn
  obtain ⟨-, -, b3, b4⟩ := all m q' hn'
  obtain ⟨d, rfl⟩ := Nat.exists_eq_add_of_le h24
  obtain ⟨e, rfl⟩ := Nat.exists_eq_add_of_le hm
  rw [show 23 + d + 1 = 24 + d by omega] at a3 a4
  rw [show 23 + e + 1 = 24 + e by omega] at b3 b4
  rw [iterate_rest R hR hb.x hb.x0 hb.x1 gx] at a3 b3
  rw [iterate_rest R hR hb.y hb.y0 hb.y1 gy] at a4 b4
  exact ⟨a3.trans b3.symm, a4.trans b4.symm⟩

theorem fitF_shown (hR : Binary R) {lo hi : ℝ} (h : lo ≤ hi) (h0 : -(9 * 10 ^ 6) ≤ lo) (h1 : hi ≤ 9 * 10 ^ 6) (v : ℝ) :
    ShownAs R lo hi v (fitF R lo hi v) := by
  have c0 : -(9 * 10 ^ 6) ≤ min (max v lo) hi := h0.trans (le_min (le_max_right _ _) h)
  have c1 : min (max v lo) hi ≤ 9 * 10 ^ 6 := (min_le_right _ _).trans h1
  have hw := fitF_whole R lo hi v
  unfold ShownAs
  generalize min (max v lo) hi = c at *
  have b0 := Int.floor_le (c * 100)
  have b1 := Int.lt_floor_add_one (c * 100)
  generalize ⌊c * 100⌋ = n at *
  have hn : |n| ≤ 10 ^ 9 := by
    have h2 : (n : ℝ) ≤ 9 * 10 ^ 8 := by linarith
    have h3 : -(9 * 10 ^ 8) < (n : ℝ) + 1 := by linarith
    have h2' : n ≤ 9 * 10 ^ 8 := by exact_mod_cast h2
    have h3' : -(9 * 10 ^ 8) < n + 1 := by exact_mod_cast h3
    rw [abs_le]
    omega
  have hn' := abs_le.mp hn
  have a1 : n ≤ centimetres R c := centimetres_int R hR (hn.trans (by norm_num)) b0
  have a2 : centimetres R c ≤ n + 1 := by
    refine centimetres_int' R hR (abs_le.mpr (by omega)) ?_
    push_cast
    exact b1.le
  rcases (show centimetres R c = n ∨ centimetres R c = n + 1 by omega) with a | a
  · exact Or.inl (a ▸ hw)
  · refine Or.inr ⟨a ▸ hw, ?_⟩
    have a3 : (n : ℝ) + 1 ≤ R.rnd (c * 100) := by
      have := Int.floor_le (R.rnd (c * 100))
      rw [show ⌊R.rnd (c * 100)⌋ = n + 1 from a] at this
      push_cast at this
      exact this
    have a4 := rnd_bound R (c * 100) (10 ^ 9) (by rw [abs_le]; constructor <;> linarith)
    rw [u_eq, abs_le] at a4
    have ht := tiny_le20
    have e1 : (1 : ℝ) / 2 ^ 53 * 10 ^ 9 ≤ 1 / 10 ^ 6 := by norm_num
    have e2 : (1 : ℝ) / 10 ^ 20 ≤ 1 / 10 ^ 6 := by norm_num
    linarith [a4.2]

/-- **C137, centimetres.** A place that is taken over is shown, in each coordinate, as the `double` of the whole centimetres in
the clamped coordinate, or of one more; one more only when less than a thousandth of a millimetre is missing. -/
theorem C137_centimetres (hR : Binary R) {cs : CommonSettings} {lv : Level} (hb : Sane lv.geometry.boundingBox) {s s' : PostState}
    {c : Call} {p : Position} (hc : Accepted R cs lv c) (hw : Walking R cs s.lastStepTs c)
    (hp : processedF R cs s c.fused c.ts c.motion lv = (p, s')) :
    p.isEmpty = false ∧ p.levelId = c.fused.levelId ∧ p.ts = c.ts ∧
      ShownAs R lv.geometry.boundingBox.minCorner.x lv.geometry.boundingBox.maxCorner.x c.fused.x p.x ∧
      ShownAs R lv.geometry.boundingBox.minCorner.y lv.geometry.boundingBox.maxCorner.y c.fused.y p.y := by
  rw [accepted_eq R hc] at hp
  have hl : (if c.motion > 0 then { s with lastStepTs := c.motion } else s).lastStepTs =
      if 0 < c.motion then c.motion else s.lastStepTs := by
    split_ifs <;> rfl
  have h1 : ∀ st : PostState, st.lastStepTs = (if 0 < c.motion then c.motion else s.lastStepTs) →
      ¬ (cs.useStops = true ∧ stopDetectedF R cs st c.ts) := by
    rintro st e ⟨a, b, d⟩
    rw [e] at b d
    rcases hw with h | h | h
    · rw [a] at h; exact absurd h (by simp)
    · omega
    · omega
  have h2 := h1 _ hl
  generalize (if c.motion > 0 then { s with lastStepTs := c.motion } else s) = st at hp h2
  unfold takeOverF at hp
  dsimp only at hp
  rw [if_neg h2] at hp
  dsimp only at hp
  rw [Prod.mk.injEq] at hp
  obtain ⟨rfl, -⟩ := hp
  exact ⟨hc.known, rfl, rfl, fitF_shown R hR hb.x hb.x0 hb.x1 _, fitF_shown R hR hb.y hb.y0 hb.y1 _⟩

end Verif.Fp
