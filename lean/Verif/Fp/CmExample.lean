import Verif.Fp.CmProps
import Verif.Post.Props

/-!
# C137: the rounding to 53 binary digits, and a user who stands still
-/

namespace Verif.Fp

open Verif.Levels Verif.Post

/-- Rounding to the nearest `double` keeps the `double`s. -/
theorem C137_nearest : Binary nearest := by
  have below : ∀ n e : ℤ, |n| < 2 ^ 53 → -1074 ≤ e → nearest.rnd (n * 2 ^ e) = n * 2 ^ e := by
    intro n e hn he
    refine grid_fix n e rfl ?_
    unfold ulpExp
    split_ifs with h0
    · exact he
    · refine max_le ?_ he
      have hx : 0 < |(n : ℝ) * 2 ^ e| := abs_pos.mpr h0
      have : Int.log 2 |(n : ℝ) * 2 ^ e| < e + 53 := by
        rw [← Int.lt_zpow_iff_log_lt (by norm_num) hx, abs_mul, abs_of_pos (two_zpow_pos e), add_comm e,
          zpow_add₀ (by norm_num)]
        have h1 : |(n : ℝ)| < 2 ^ 53 := by exact_mod_cast hn
        have := mul_lt_mul_of_pos_right h1 (two_zpow_pos e)
        push_cast
        exact_mod_cast this
      omega
  intro n e hn he
  rcases hn.lt_or_eq with h | h
  · exact below n e h he
  · rcases abs_eq (by norm_num : (0 : ℤ) ≤ 2 ^ 53) |>.mp h with rfl | rfl
    · have := below 1 (e + 53) (by norm_num) (by omega)
      rw [zpow_add₀ (by norm_num)] at this
      have e1 : ((2 ^ 53 : ℤ) : ℝ) * 2 ^ e = ((1 : ℤ) : ℝ) * (2 ^ e * 2 ^ (53 : ℤ)) := by
        rw [show (2 : ℝ) ^ (53 : ℤ) = 2 ^ 53 by norm_cast]; push_cast; ring
      rw [e1]; exact this
    · have := below (-1) (e + 53) (by norm_num) (by omega)
      rw [zpow_add₀ (by norm_num)] at this
      have e1 : ((-2 ^ 53 : ℤ) : ℝ) * 2 ^ e = ((-1 : ℤ) : ℝ) * (2 ^ e * 2 ^ (53 : ℤ)) := by
        rw [show (2 : ℝ) ^ (53 : ℤ) = 2 ^ 53 by norm_cast]; push_cast; ring
      rw [e1]; exact this

/-- The rounding of a given number. -/
theorem nearest_value {x : ℝ} (e k : ℤ) (he : -1074 ≤ e) (h0 : (2 : ℝ) ^ (e + 52) ≤ x) (h1 : x < 2 ^ (e + 53))
    (hk0 : k - 1 / 2 ≤ x / 2 ^ e) (hk1 : x / 2 ^ e < k + 1 / 2) : nearest.rnd x = k * 2 ^ e := by
  have hx : 0 < x := (two_zpow_pos _).trans_le h0
  have hu : ulpExp x = e := by
    have hlog : Int.log 2 x = e + 52 := by
      have a1 : e + 52 ≤ Int.log 2 x := by
        rw [← Int.zpow_le_iff_le_log (by norm_num) hx]; exact_mod_cast h0
      have a2 : Int.log 2 x < e + 53 := by
        rw [← Int.lt_zpow_iff_log_lt (by norm_num) hx]; exact_mod_cast h1
      omega
    unfold ulpExp
    rw [if_neg hx.ne', abs_of_pos hx, hlog, max_eq_left (by omega)]
    ring
  show (round (x / 2 ^ ulpExp x) : ℤ) * (2 : ℝ) ^ ulpExp x = _
  rw [hu, round_eq, (Int.floor_eq_iff (z := k)).mpr ⟨by linarith, by linarith⟩]

theorem again_value {j : ℤ} (k k2 m : ℤ) (h0 : (1 : ℝ) ≤ j / 100) (h1 : (j : ℝ) / 100 < 2)
    (hk0 : (k - 1 / 2 : ℝ) ≤ j / 100 * 2 ^ 52) (hk1 : (j : ℝ) / 100 * 2 ^ 52 < k + 1 / 2)
    (a0 : (64 : ℝ) * 2 ^ 52 ≤ k * 100) (a1 : (k : ℝ) * 100 < 128 * 2 ^ 52)
    (b0 : (k2 - 1 / 2 : ℝ) ≤ k * 100 / 2 ^ 6) (b1 : (k : ℝ) * 100 / 2 ^ 6 < k2 + 1 / 2)
    (c0 : (m : ℝ) * 2 ^ 46 ≤ k2) (c1 : (k2 : ℝ) < (m + 1) * 2 ^ 46) : again nearest j = m := by
  have e1 : (2 : ℝ) ^ (-52 : ℤ) = 1 / 2 ^ 52 := by norm_num [zpow_neg]
  have e2 : (2 : ℝ) ^ (-46 : ℤ) = 1 / 2 ^ 46 := by norm_num [zpow_neg]
  have r1 : nearest.rnd (j / 100) = k * (1 / 2 ^ 52) := by
    rw [← e1]
    refine nearest_value (-52) k (by norm_num) (by norm_num; linarith) (by norm_num; linarith) ?_ ?_
    · rw [e1]; norm_num at hk0 ⊢; linarith
    · rw [e1]; norm_num at hk1 ⊢; linarith
  have r2 : nearest.rnd (k * (1 / 2 ^ 52) * 100) = k2 * (1 / 2 ^ 46) := by
    rw [← e2]
    refine nearest_value (-46) k2 (by norm_num) ?_ ?_ ?_ ?_
    · norm_num at a0 ⊢; linarith
    · norm_num at a1 ⊢; linarith
    · rw [e2]; norm_num at b0 ⊢; linarith
    · rw [e2]; norm_num at b1 ⊢; linarith
  unfold again centimetres
  rw [r1, r2, Int.floor_eq_iff]
  norm_num at c0 c1 ⊢
  constructor <;> linarith

theorem again_116 : again nearest 116 = 115 := again_value 5224175567749775 8162774324609023 115
  (by norm_num) (by norm_num) (by norm_num) (by norm_num) (by norm_num) (by norm_num) (by norm_num) (by norm_num) (by norm_num)
  (by norm_num)

theorem again_115 : again nearest 115 = 114 := again_value 5179139571476070 8092405580431359 114
  (by norm_num) (by norm_num) (by norm_num) (by norm_num) (by norm_num) (by norm_num) (by norm_num) (by norm_num) (by norm_num)
  (by norm_num)

theorem again_114 : again nearest 114 = 113 := again_value 5134103575202365 8022036836253695 113
  (by norm_num) (by norm_num) (by norm_num) (by norm_num) (by norm_num) (by norm_num) (by norm_num) (by norm_num) (by norm_num)
  (by norm_num)

theorem again_113 : again nearest 113 = 112 := again_value 5089067578928660 7951668092076031 112
  (by norm_num) (by norm_num) (by norm_num) (by norm_num) (by norm_num) (by norm_num) (by norm_num) (by norm_num) (by norm_num)
  (by norm_num)

theorem again_112 : again nearest 112 = 112 := again_value 5044031582654956 7881299347898369 112
  (by norm_num) (by norm_num) (by norm_num) (by norm_num) (by norm_num) (by norm_num) (by norm_num) (by norm_num) (by norm_num)
  (by norm_num)

/-- **C137, no rounding.** Without rounding this is the post-processing of the other properties. -/
theorem C137_exact {cs : CommonSettings} (h1 : cs.useSmoothing = false) (h2 : cs.useTimeSmoothing = false)
    (h3 : cs.useGraphProjection = false) (allowed : ℝ → ℝ → Prop) (s : PostState) (fused : Position) (ts m : Int) (lv : Level) :
    getProcessedPosition cs allowed s fused ts m lv = some (processedF exact cs s fused ts m lv) := by
  unfold getProcessedPosition processedF
  generalize (if m > 0 then { s with lastStepTs := m } else s) = s'
  have hd : ∀ a b c d, getDistF exact a b c d = Geometry.getDist a b c d := fun a b c d => rfl
  have e : takeOverF exact cs s' fused ts = takeOver cs s' fused ts := by
    unfold takeOverF takeOver
    dsimp only
    rw [hd]
    rfl
  have e2 : fitInBoxF exact lv.geometry.boundingBox (takeOver cs s' fused ts).lastOut =
      fitInBox lv.geometry.boundingBox (takeOver cs s' fused ts).lastOut := rfl
  have hm : millisF exact cs.deadReckoningTime = toLongLong (1000 * cs.deadReckoningTime) := rfl
  dsimp only
  rw [e, e2, hm]
  simp only [smoothing, h1, h2, snapToGraph, h3, Bool.false_eq_true, if_false, Option.map_some, Option.bind_some]
  split_ifs <;> rfl

/-! ### A session -/

/-- The default settings with stop detection, without smoothing. -/
noncomputable def stopSettings : CommonSettings := { useStops := true, useSmoothing := false }

/-- The estimator finds the same place all the time: 1.1640625 m to the east (a `double`). -/
noncomputable def sameCall (ts motion : Int) : Call := ⟨⟨149 / 128, 0, "a", 1, ts, false, .INDOOR, 0⟩, ts, motion⟩

theorem millis_int (n : ℤ) (h : 0 ≤ n) (h2 : n ≤ 10 ^ 10) (t : ℝ) (ht : 1000 * t = n) : millisF nearest t = n := by
  unfold millisF toLongLong
  rw [ht, rnd_int nearest C137_nearest (by rw [abs_of_nonneg h]; exact h2.trans (by norm_num))]
  rw [if_pos (by exact_mod_cast h), Int.floor_intCast]

theorem detect_ms : millisF nearest stopSettings.stopDetectionTime = 3000 :=
  millis_int 3000 (by norm_num) (by norm_num) _ (by norm_num [stopSettings])

theorem update_ms : millisF nearest stopSettings.stopUpdateTime = 4000 :=
  millis_int 4000 (by norm_num) (by norm_num) _ (by norm_num [stopSettings])

theorem dead_ms : millisF nearest stopSettings.deadReckoningTime = 5000 :=
  millis_int 5000 (by norm_num) (by norm_num) _ (by norm_num [stopSettings])

theorem same_accepted (ts motion : Int) : Accepted nearest stopSettings squareLevel (sameCall ts motion) where
  known := rfl
  inside := Or.inr (by norm_num [Estim.Box.Covers, squareLevel, sameCall, Position.toXY])
  fresh := by rw [dead_ms]; simp [sameCall]

theorem same_quiet (ts : Int) (h0 : 12000 ≤ ts) (h1 : ts ≤ 16000) (p : Position) :
    Quiet nearest stopSettings squareLevel 9000 12000 p (sameCall ts 0) where
  accepted := same_accepted ts 0
  noStep := le_rfl
  stepped := by norm_num
  still := by rw [detect_ms]; show (3000 : Int) ≤ ts - 9000; omega
  kept := Or.inl (by rw [update_ms]; show ts - 12000 ≤ (4000 : Int); omega)

/-- The centimetres after one, two, … messages. -/
noncomputable def trail : ℤ → ℕ → List ℤ
  | _, 0 => []
  | j, n + 1 => again nearest j :: trail (again nearest j) n

theorem all_quiet (l : List Int) (hl : ∀ t ∈ l, 12000 ≤ t ∧ t ≤ 16000) : ∀ (s : PostState) (p : Position),
    AllQuiet nearest stopSettings squareLevel 9000 12000 p (l.map (fun t => sameCall t 0))
      (callsF nearest stopSettings squareLevel s (l.map (fun t => sameCall t 0))).1 := by
  induction l with
  | nil => intro s p; trivial
  | cons t l ih =>
    intro s p
    exact ⟨same_quiet t (hl t (by simp)).1 (hl t (by simp)).2 p, ih (fun t ht => hl t (by simp [ht])) _ _⟩

theorem fit_inner {v : ℝ} (h0 : -100 ≤ v) (h1 : v ≤ 100) : min (max v (-100)) 100 = v := by
  rw [max_eq_left h0, min_eq_left h1]

theorem held_list (l : List Int) (hl : ∀ t ∈ l, 12000 ≤ t ∧ t ≤ 16000) : ∀ (s : PostState) (j : ℤ), s.lastStepTs = 9000 →
    s.lastExtractionTs = 12000 → Whole nearest s.lastOut.x j → -9000 ≤ j → j ≤ 9000 → l.length ≤ 10 →
    (∀ i ≤ l.length, -9000 ≤ (again nearest)^[i] j ∧ (again nearest)^[i] j ≤ 9000) →
    (callsF nearest stopSettings squareLevel s (l.map (fun t => sameCall t 0))).1.map (fun p => p.x) =
      (trail j l.length).map (fun i : ℤ => nearest.rnd (i / 100)) := by
  induction l with
  | nil => intros; rfl
  | cons t l ih =>
    intro s j h1 h2 h3 h4 h5 hlen hr
    have hq := same_quiet t (hl t (by simp)).1 (hl t (by simp)).2 s.lastOut
    rw [← h1, ← h2] at hq
    have heq := quiet_eq nearest (cs := stopSettings) rfl hq
    dsimp only at heq
    have hj : |(j : ℝ)| ≤ 9000 := by rw [abs_le]; constructor <;> exact_mod_cast (by assumption)
    have hn := rnd_bound nearest ((j : ℝ) / 100) 90 (by rw [abs_div, abs_of_pos (by norm_num : (0 : ℝ) < 100)]; linarith)
    rw [u_eq, abs_le] at hn
    have ht := tiny_le20
    have e3 : (1 : ℝ) / 2 ^ 53 * 90 ≤ 1 := by norm_num
    have e4 : (1 : ℝ) / 10 ^ 20 ≤ 1 := by norm_num
    rw [abs_le] at hj
    have hx : (fitInBoxF nearest squareLevel.geometry.boundingBox { s.lastOut with ts := t }).x =
        nearest.rnd ((again nearest j : ℤ) / 100) := by
      show fitF nearest (-100) 100 s.lastOut.x = _
      unfold fitF
      rw [show s.lastOut.x = nearest.rnd (j / 100) from h3, fit_inner (by linarith [hn.1]) (by linarith [hn.2])]
      rfl
    have hr1 := hr 1 (by simp)
    simp only [Function.iterate_one] at hr1
    have rest := ih (fun t ht => hl t (by simp [ht]))
      { s with lastOut := fitInBoxF nearest squareLevel.geometry.boundingBox { s.lastOut with ts := t } } (again nearest j) h1 h2
      hx hr1.1 hr1.2 (by simp at hlen; omega) (fun i hi => by
        have := hr (i + 1) (by simp; omega)
        rwa [Function.iterate_succ_apply] at this)
    simp only [List.map_cons, callsF, List.length_cons, trail]
    rw [heq]
    exact List.cons_eq_cons.mpr ⟨hx, rest⟩

theorem rnd_within {v : ℝ} (n : ℤ) (hn : |n| ≤ 2 ^ 53) (h0 : -n ≤ v) (h1 : v ≤ n) : -n ≤ nearest.rnd v ∧ nearest.rnd v ≤ n := by
  have e1 := rnd_int nearest C137_nearest hn
  have e2 := rnd_int nearest C137_nearest (n := -n) (by rwa [abs_neg])
  push_cast at e2
  exact ⟨e2 ▸ nearest.mono h0, e1 ▸ nearest.mono h1⟩

theorem fit_same : fitF nearest (-100) 100 (149 / 128) = nearest.rnd ((116 : ℤ) / 100) := by
  unfold fitF centimetres
  rw [fit_inner (by norm_num) (by norm_num)]
  have e := C137_nearest 3725 (-5) (by norm_num) (by norm_num)
  have e1 : (2 : ℝ) ^ (-5 : ℤ) = 1 / 32 := by norm_num [zpow_neg]
  rw [e1] at e
  rw [show (149 / 128 * 100 : ℝ) = ((3725 : ℤ) : ℝ) * (1 / 32) by norm_num, e]
  congr 3
  rw [Int.floor_eq_iff]
  norm_num

theorem fit_zero : fitF nearest (-100) 100 0 = 0 := by
  unfold fitF centimetres
  rw [fit_inner (by norm_num) (by norm_num), zero_mul, nearest.zero, Int.floor_zero, Int.cast_zero, zero_div, nearest.zero]

/-- The state after the first message. -/
noncomputable def shown (s : PostState) (q : Position) (step renewed : Int) : PostState :=
  { s with lastOut := q, lastStepTs := step, lastExtractionTs := renewed }

theorem first_call :
    processedF nearest stopSettings (postInit stopSettings) (sameCall 10000 9000).fused 10000 9000 squareLevel =
      (⟨nearest.rnd ((116 : ℤ) / 100), 0, "a", 0, 10000, false, .INDOOR, 0⟩,
        shown (postInit stopSettings) ⟨nearest.rnd ((116 : ℤ) / 100), 0, "a", 0, 10000, false, .INDOOR, 0⟩ 9000 0) := by
  have h := accepted_eq nearest (same_accepted 10000 9000) (postInit stopSettings)
  rw [show (sameCall 10000 9000).motion = 9000 from rfl, show (sameCall 10000 9000).ts = 10000 from rfl] at h
  rw [h, if_pos (by norm_num)]
  unfold takeOverF
  dsimp only
  rw [if_neg (by rintro ⟨-, -, h3⟩; rw [detect_ms] at h3; norm_num at h3)]
  have e : fitInBoxF nearest squareLevel.geometry.boundingBox
      ⟨149 / 128, 0, "a", 0, 10000, false, .INDOOR, 0⟩ = ⟨nearest.rnd ((116 : ℤ) / 100), 0, "a", 0, 10000, false, .INDOOR, 0⟩ := by
    show (⟨fitF nearest (-100) 100 (149 / 128), fitF nearest (-100) 100 0, _, _, _, _, _, _⟩ : Position) = _
    rw [fit_same, fit_zero]
  exact Prod.ext e (by show shown (postInit stopSettings) _ 9000 0 = _; rw [← e]; rfl)

theorem second_call (s : PostState) (q : Position) (hx : q.x = nearest.rnd ((116 : ℤ) / 100)) (hy : q.y = 0) :
    processedF nearest stopSettings (shown s q 9000 0) (sameCall 12000 0).fused 12000 0 squareLevel =
      (⟨nearest.rnd ((116 : ℤ) / 100), 0, "a", 1, 12000, false, .INDOOR, 0⟩,
        shown s ⟨nearest.rnd ((116 : ℤ) / 100), 0, "a", 1, 12000, false, .INDOOR, 0⟩ 9000 12000) := by
  have h := accepted_eq nearest (same_accepted 12000 0) (shown s q 9000 0)
  rw [show (sameCall 12000 0).motion = 0 from rfl, show (sameCall 12000 0).ts = 12000 from rfl] at h
  rw [h, if_neg (by norm_num)]
  have hstop : stopDetectedF nearest stopSettings (shown s q 9000 0) 12000 := by
    refine ⟨by show (9000 : Int) > 0; norm_num, ?_⟩
    rw [detect_ms]
    show (12000 : Int) - 9000 ≥ 3000
    norm_num
  have hd : getDistF nearest q.x q.y (149 / 128) 0 < 10 := by
    have a1 := rnd_within (v := (116 : ℤ) / 100) 2 (by norm_num) (by norm_num) (by norm_num)
    rw [← hx] at a1
    have a2 := rnd_within (v := q.x - 149 / 128) 4 (by norm_num) (by push_cast at a1 ⊢; linarith [a1.1])
      (by push_cast at a1 ⊢; linarith [a1.2])
    unfold getDistF
    rw [hy, sub_zero, nearest.zero, mul_zero, nearest.zero, add_zero]
    generalize nearest.rnd (q.x - 149 / 128) = d at a2
    push_cast at a2
    have a3 := rnd_within (v := d * d) 16 (by norm_num) (by push_cast; nlinarith [a2.1, a2.2]) (by push_cast; nlinarith [a2.1, a2.2])
    have a4 := rnd_within (v := nearest.rnd (d * d)) 16 (by norm_num) a3.1 a3.2
    have a5 : Real.sqrt (nearest.rnd (nearest.rnd (d * d))) ≤ 4 := by
      rw [show (4 : ℝ) = Real.sqrt 16 by rw [show (16 : ℝ) = 4 * 4 by norm_num]; exact (Real.sqrt_mul_self (by norm_num)).symm]
      refine Real.sqrt_le_sqrt ?_
      have := a4.2
      push_cast at this
      exact this
    have a6 := rnd_within (v := Real.sqrt (nearest.rnd (nearest.rnd (d * d)))) 4 (by norm_num)
      (by push_cast; linarith [Real.sqrt_nonneg (nearest.rnd (nearest.rnd (d * d)))]) (by push_cast; exact a5)
    have := a6.2
    push_cast at this
    linarith
  unfold takeOverF
  dsimp only
  rw [if_pos ⟨rfl, hstop⟩, if_pos ⟨by rw [update_ms]; show (12000 : Int) - 0 > 4000; norm_num, hd⟩]
  have e : fitInBoxF nearest squareLevel.geometry.boundingBox
      ⟨149 / 128, 0, "a", 1, 12000, false, .INDOOR, 0⟩ = ⟨nearest.rnd ((116 : ℤ) / 100), 0, "a", 1, 12000, false, .INDOOR, 0⟩ := by
    show (⟨fitF nearest (-100) 100 (149 / 128), fitF nearest (-100) 100 0, _, _, _, _, _, _⟩ : Position) = _
    rw [fit_same, fit_zero]
  exact Prod.ext e (by show shown s _ 9000 12000 = _; rw [← e]; rfl)

/-- **C137, witness.** A user who stands still and whom the estimator finds at exactly the same place all the time, with messages
twice a second: the shown place moves four centimetres. -/
theorem C137_creep_witness :
    (callsF nearest stopSettings squareLevel (postInit stopSettings)
      ([sameCall 10000 9000, sameCall 12000 0] ++ [12500, 13000, 13500, 14000, 14500].map (fun t => sameCall t 0))).1.map
        (fun p => p.x) = [116, 116, 115, 114, 113, 112, 112].map (fun j : ℤ => nearest.rnd (j / 100)) ∧
    nearest.rnd (112 / 100) < nearest.rnd (116 / 100) - 39 / 1000 := by
  constructor
  · have h1 := first_call
    have h2 := second_call (postInit stopSettings) ⟨nearest.rnd ((116 : ℤ) / 100), 0, "a", 0, 10000, false, .INDOOR, 0⟩ rfl rfl
    have h3 := held_list [12500, 13000, 13500, 14000, 14500] (by simp)
      (shown (postInit stopSettings) ⟨nearest.rnd ((116 : ℤ) / 100), 0, "a", 1, 12000, false, .INDOOR, 0⟩ 9000 12000) 116 rfl rfl rfl
      (by norm_num) (by norm_num) (by simp) (fun i hi => by
        have : i ≤ 5 := hi
        interval_cases i <;> simp [Function.iterate_succ_apply, again_116, again_115, again_114, again_113, again_112])
    simp only [List.length_cons, List.length_nil, trail, again_116, again_115, again_114, again_113, again_112] at h3
    rw [show [sameCall 10000 9000, sameCall 12000 0] ++ [12500, 13000, 13500, 14000, 14500].map (fun t => sameCall t 0) =
      sameCall 10000 9000 :: sameCall 12000 0 :: [12500, 13000, 13500, 14000, 14500].map (fun t => sameCall t 0) from rfl]
    rw [callsF, show processedF nearest stopSettings (postInit stopSettings) (sameCall 10000 9000).fused (sameCall 10000 9000).ts
      (sameCall 10000 9000).motion squareLevel = _ from h1]
    dsimp only
    rw [callsF, show processedF nearest stopSettings (shown (postInit stopSettings) _ 9000 0) (sameCall 12000 0).fused
      (sameCall 12000 0).ts (sameCall 12000 0).motion squareLevel = _ from h2]
    dsimp only
    rw [List.map_cons, List.map_cons, h3]
    rfl
  · have a := rnd_bound nearest (112 / 100) 2 (by norm_num [abs_le])
    have b := rnd_bound nearest (116 / 100) 2 (by norm_num [abs_le])
    rw [u_eq, abs_le] at a b
    have ht := tiny_le20
    have e1 : (1 : ℝ) / 2 ^ 53 * 2 ≤ 1 / 10 ^ 6 := by norm_num
    have e2 : (1 : ℝ) / 10 ^ 20 ≤ 1 / 10 ^ 6 := by norm_num
    linarith [a.2, b.1]

/-- The theorem about these messages. -/
example (n : ℕ) (q : Position) (s : PostState) :
    let p : Position := ⟨nearest.rnd ((116 : ℤ) / 100), 0, "a", 1, 12000, false, .INDOOR, 0⟩
    (callsF nearest stopSettings squareLevel (shown s p 9000 12000)
      ([12500, 13000, 13500, 14000, 14500].map (fun t => sameCall t 0))).1[n]? = some q →
    Crept nearest (n + 1) p.x q.x := by
  intro p hn
  refine (C137_creep nearest C137_nearest (cs := stopSettings) rfl (lv := squareLevel) ?_ (same_accepted 12000 0)
    (second_call s ⟨nearest.rnd ((116 : ℤ) / 100), 0, "a", 0, 10000, false, .INDOOR, 0⟩ rfl rfl) _
    (all_quiet [12500, 13000, 13500, 14000, 14500] (by simp) _ _) n hn).2.2.1
  constructor <;> norm_num [squareLevel]

end Verif.Fp
