import Verif.Track.Props
import Verif.Smooth.IrregularProps

/-!
# C123: the answers of a client that stays near a transmitter
-/

namespace Verif.Track

open Verif.Levels Verif.Nav Verif.Floors
open Verif.Geo (XYPoint)
open Verif.Knn (Result)
open Verif.Smooth

/-! ## The motion of equal fixes -/

theorem follow_rest (cs : CommonSettings) (allowed : ℝ → ℝ → Prop) (t t' : Int) (p : XYPoint) :
    (Motion.rest ⟨t, p⟩).follow cs allowed ⟨t', p⟩ = Motion.rest ⟨t', p⟩ := by
  unfold Motion.follow Motion.rest
  dsimp only
  split_ifs
  · rfl
  · simp

theorem fold_rest (cs : CommonSettings) (allowed : ℝ → ℝ → Prop) (p : XYPoint) (gs : List Fix) (hg : ∀ f ∈ gs, f.place = p) (t : Int) :
    (gs.foldl (Motion.follow cs allowed) (Motion.rest ⟨t, p⟩)).place = p := by
  induction gs generalizing t with
  | nil => rfl
  | cons f gs ih =>
    rw [List.foldl_cons]
    have : f = ⟨f.time, p⟩ := by rw [← hg f (by simp)]
    rw [this, follow_rest]
    exact ih (fun f hf => hg f (by simp [hf])) _

/-- A smoother state for a motion. -/
noncomputable def stateOf (k : Motion) : AbState := ⟨true, k.speed.x, k.speed.y, ⟨k.place.x, k.place.y, "", 0, k.time, false, .INDOOR, 0⟩⟩

/-- One step of the motion is one step of the smoother. -/
theorem follow_ab {cs : CommonSettings} (hacc : cs.useAccuracyForSmoothing = false) (allowed : ℝ → ℝ → Prop) (k : Motion) (s : AbState)
    (hs : s.wasCalled = true ∧ s.position.ts = k.time ∧ s.position.toXY = k.place ∧ s.speedX = k.speed.x ∧ s.speedY = k.speed.y)
    (q : Position) (hts : k.time < q.ts) :
    let s' := (abSmooth (abParams cs) allowed s q).2
    let k' := k.follow cs allowed ⟨q.ts, q.toXY⟩
    s'.wasCalled = true ∧ s'.position.ts = k'.time ∧ s'.position.toXY = k'.place ∧ s'.speedX = k'.speed.x ∧ s'.speedY = k'.speed.y := by
  intro s' k'
  obtain ⟨hw, k1, k2, k3, k4⟩ := hs
  have hg := params cs hacc s q
  obtain ⟨n1, n2⟩ := abSmooth_newer (abParams cs) allowed s q (by rw [k1]; exact hts) (by rw [hg]; exact weight_lt cs)
  rw [hg] at n1 n2
  have kx : s.position.x = k.place.x := congrArg (·.x) k2
  have ky : s.position.y = k.place.y := congrArg (·.y) k2
  have hel : elapsed s q = ((q.ts - k.time : Int) : ℝ) / 1000 := by unfold elapsed; rw [k1]
  have hpr : prediction s q = ⟨k.place.x + k.speed.x * (((q.ts - k.time : Int) : ℝ) / 1000), k.place.y + k.speed.y * (((q.ts - k.time : Int) : ℝ) / 1000)⟩ := by
    unfold prediction; rw [hel, kx, ky, k3, k4]
  by_cases hr : TakenRaw (abParams cs) allowed s q (weight cs)
  · have hk' : k' = Motion.rest ⟨q.ts, q.toXY⟩ := by
      rcases hr with hr | hr
      · rw [hw] at hr; cases hr
      · rw [hel] at hr
        unfold correctedSpeed between at hr
        rw [hel, hpr, k3, k4] at hr
        simp only [k']
        unfold Motion.follow
        exact if_pos hr
    simp only [s']
    rw [n1 hr, hk']
    exact ⟨rfl, rfl, rfl, rfl, rfl⟩
  · obtain ⟨out, e, o1, o2, o3, -⟩ := n2 hr
    have hf : k' = ⟨q.ts, between (prediction s q) q.toXY (weight cs), correctedSpeed s q (weight cs)⟩ := by
      simp only [k']
      unfold Motion.follow
      dsimp only
      rw [if_neg]
      · unfold correctedSpeed between
        rw [hel, hpr, k3, k4]
        rfl
      · intro hh
        refine hr (Or.inr ?_)
        rw [hel]
        unfold correctedSpeed between
        rw [hel, hpr, k3, k4]
        exact hh
    simp only [s']
    rw [e, hf]
    exact ⟨hw, o3, o1, rfl, rfl⟩

/-- The times of the fixes, continued with the last interval. -/
def continued (L : List Int) (i : ℕ) : Int :=
  if i < L.length then L.getD i 0
  else L.getD (L.length - 1) 0 + (i + 1 - L.length : ℕ) * (L.getD (L.length - 1) 0 - L.getD (L.length - 2) 0)

theorem continued_next {L : List Int} {i : ℕ} (h2 : 2 ≤ L.length) (h : L.length ≤ i + 1) :
    continued L (i + 1) - continued L i = L.getD (L.length - 1) 0 - L.getD (L.length - 2) 0 := by
  unfold continued
  rcases eq_or_lt_of_le h with h' | h'
  · rw [if_neg (by omega), if_pos (by omega), show i = L.length - 1 by omega, show L.length - 1 + 1 + 1 - L.length = 1 by omega]
    push_cast
    ring
  · rw [if_neg (by omega), if_neg (by omega), show i + 1 + 1 - L.length = (i + 1 - L.length) + 1 by omega]
    push_cast
    ring

theorem steady_index {lo hi : ℝ} {L : List Int} (h : Steady lo hi L) {i : ℕ} (hi' : i + 2 < L.length) :
    lo * ((L.getD (i + 1) 0 - L.getD i 0 : Int) : ℝ) ≤ ((L.getD (i + 2) 0 - L.getD (i + 1) 0 : Int) : ℝ) ∧
    ((L.getD (i + 2) 0 - L.getD (i + 1) 0 : Int) : ℝ) ≤ hi * ((L.getD (i + 1) 0 - L.getD i 0 : Int) : ℝ) := by
  have hsplit : L = L.take i ++ L[i] :: L[i + 1] :: L[i + 2] :: L.drop (i + 3) := by
    conv_lhs => rw [← List.take_append_drop i L]
    rw [List.drop_eq_getElem_cons (by omega : i < L.length), List.drop_eq_getElem_cons (by omega : i + 1 < L.length),
      List.drop_eq_getElem_cons (by omega : i + 2 < L.length)]
  have := h _ _ _ _ _ hsplit
  rw [List.getD_eq_getElem _ _ (by omega : i < L.length), List.getD_eq_getElem _ _ (by omega : i + 1 < L.length),
    List.getD_eq_getElem _ _ hi']
  exact this

/-- The continued times are steady. -/
theorem continued_steady {lo hi : ℝ} (hlo : lo ≤ 1) (hhi : 1 ≤ hi) {L : List Int} (h2 : 2 ≤ L.length) (hs : Steady lo hi L)
    (hinc : L.Pairwise (· < ·)) (i : ℕ) :
    continued L i < continued L (i + 1) ∧
    lo * ((continued L (i + 1) - continued L i : Int) : ℝ) ≤ ((continued L (i + 2) - continued L (i + 1) : Int) : ℝ) ∧
    ((continued L (i + 2) - continued L (i + 1) : Int) : ℝ) ≤ hi * ((continued L (i + 1) - continued L i : Int) : ℝ) := by
  have hlt : ∀ j, j + 1 < L.length → L.getD j 0 < L.getD (j + 1) 0 := by
    intro j hj
    rw [List.getD_eq_getElem _ _ (by omega : j < L.length), List.getD_eq_getElem _ _ hj]
    exact List.pairwise_iff_getElem.mp hinc j (j + 1) (by omega) hj (by omega)
  have hgap : (0 : Int) < L.getD (L.length - 1) 0 - L.getD (L.length - 2) 0 := by
    have := hlt (L.length - 2) (by omega)
    rw [show L.length - 2 + 1 = L.length - 1 by omega] at this
    omega
  have hgap' : (0 : ℝ) < ((L.getD (L.length - 1) 0 - L.getD (L.length - 2) 0 : Int) : ℝ) := by exact_mod_cast hgap
  have hin : ∀ j, j < L.length → continued L j = L.getD j 0 := fun j hj => if_pos hj
  refine ⟨?_, ?_⟩
  · by_cases h : i + 1 < L.length
    · rw [hin _ h, hin _ (by omega)]; exact hlt i h
    · have := continued_next h2 (by omega : L.length ≤ i + 1)
      omega
  · by_cases h : i + 2 < L.length
    · rw [hin _ h, hin _ (by omega : i + 1 < L.length), hin _ (by omega : i < L.length)]
      exact steady_index hs h
    · rw [show i + 2 = (i + 1) + 1 by ring, continued_next h2 (by omega : L.length ≤ i + 1 + 1)]
      have hprev : continued L (i + 1) - continued L i = L.getD (L.length - 1) 0 - L.getD (L.length - 2) 0 := by
        by_cases h' : i + 1 < L.length
        · rw [hin _ h', hin _ (by omega : i < L.length), show i + 1 = L.length - 1 by omega, show i = L.length - 2 by omega]
        · exact continued_next h2 (by omega)
      rw [hprev]
      constructor
      · have := mul_le_mul_of_nonneg_right hlo hgap'.le
        linarith
      · have := mul_le_mul_of_nonneg_right hhi hgap'.le
        linarith

theorem weight_range (cs : CommonSettings) : 1 / 10 ≤ weight cs ∧ weight cs ≤ 9 / 10 := by
  unfold weight
  have h0 : 0 ≤ min 1 (max 0 cs.smoothing) := le_min zero_le_one (le_max_left _ _)
  have h1 : min 1 (max 0 cs.smoothing) ≤ 1 := min_le_left _ _
  constructor <;> linarith

theorem alpha_weight (cs : CommonSettings) : (abParams cs).alpha = weight cs := by
  unfold abParams weight MIN_ALPHA MAX_ALPHA
  dsimp only
  ring

/-- The fold of the motion is the iteration of the smoother. -/
theorem fold_ab {cs : CommonSettings} (hacc : cs.useAccuracyForSmoothing = false) (allowed : ℝ → ℝ → Prop) (k : Motion) (p : XYPoint)
    (gs : List Fix) (hg : ∀ f ∈ gs, f.place = p) (pos : ℕ → Position) (hpos : ∀ i, (pos i).toXY = p)
    (ht : ∀ i (h : i < gs.length), (pos i).ts = gs[i].time) (hinc : (k.time :: gs.map Fix.time).Pairwise (· < ·)) (n : ℕ) (hn : n ≤ gs.length) :
    let s := abIterate (abParams cs) (fun _ => allowed) (stateOf k) pos n
    let k' := (gs.take n).foldl (Motion.follow cs allowed) k
    (s.wasCalled = true ∧ s.position.ts = k'.time ∧ s.position.toXY = k'.place ∧ s.speedX = k'.speed.x ∧ s.speedY = k'.speed.y) ∧
    k'.time = (k.time :: gs.map Fix.time).getD n 0 := by
  induction n with
  | zero => exact ⟨⟨rfl, rfl, rfl, rfl, rfl⟩, rfl⟩
  | succ n ih =>
    obtain ⟨i1, i2⟩ := ih (by omega)
    have hlt : n < gs.length := by omega
    intro s k'
    have hk' : k' = ((gs.take n).foldl (Motion.follow cs allowed) k).follow cs allowed gs[n] := by
      simp only [k']
      rw [List.take_succ_eq_append_getElem hlt, List.foldl_append]
      rfl
    have hgn : gs[n] = ⟨(pos n).ts, (pos n).toXY⟩ := by
      have h1 := hg gs[n] (List.getElem_mem hlt)
      have h2 := ht n hlt
      rw [h2, hpos n, ← h1]
    have htime : ((gs.take n).foldl (Motion.follow cs allowed) k).time < (pos n).ts := by
      rw [i2, ht n hlt]
      have := List.pairwise_iff_getElem.mp hinc n (n + 1) (by simp; omega) (by simp; omega) (by omega)
      rw [List.getD_eq_getElem _ _ (by simp; omega)]
      simpa using this
    have := follow_ab hacc allowed _ _ i1 (pos n) htime
    rw [← hgn, ← hk'] at this
    refine ⟨this, ?_⟩
    rw [hk', follow_time, List.getD_cons_succ, List.getD_eq_getElem _ _ (by simpa using hlt)]
    simp

/-- The motion settles. -/
theorem fold_settles {cs : CommonSettings} (hacc : cs.useAccuracyForSmoothing = false) {lo hi : ℝ} (hlo1 : lo ≤ 1) (hhi1 : 1 ≤ hi)
    (hlo : Mild (weight cs) lo) (hhi : Mild (weight cs) hi) :
    ∃ γ, 0 ≤ γ ∧ γ < 1 ∧ ∀ (allowed : ℝ → ℝ → Prop) (k : Motion) (p : XYPoint), ∃ C, ∀ gs : List Fix, (∀ f ∈ gs, f.place = p) →
      (k.time :: gs.map Fix.time).Pairwise (· < ·) → Steady lo hi (k.time :: gs.map Fix.time) →
      |(gs.foldl (Motion.follow cs allowed) k).place.x - p.x| ≤ C * γ ^ gs.length ∧
      |(gs.foldl (Motion.follow cs allowed) k).place.y - p.y| ≤ C * γ ^ gs.length := by
  obtain ⟨w0, w1⟩ := weight_range cs
  rw [← alpha_weight] at w0 w1 hlo hhi
  obtain ⟨γ, G, g0, g1, -, hconv⟩ := C122_near (abParams cs) hacc w0 w1 hlo hhi
  refine ⟨γ, g0, g1, fun allowed k p => ?_⟩
  set C := 20 * (|k.place.x - p.x| + |k.place.y - p.y| + 10 * |k.speed.x| + 10 * |k.speed.y|) with hC
  have a1 := abs_nonneg (k.place.x - p.x)
  have a2 := abs_nonneg (k.place.y - p.y)
  have a3 := abs_nonneg k.speed.x
  have a4 := abs_nonneg k.speed.y
  have hC0 : 0 ≤ C := by rw [hC]; positivity
  refine ⟨C, fun gs hg hinc hst => ?_⟩
  rcases gs with - | ⟨f, gs⟩
  · rw [List.length_nil, pow_zero, mul_one, hC]
    simp only [List.foldl_nil]
    constructor <;> linarith
  set T : ℝ := ((f.time - k.time : Int) : ℝ) / 1000 with hT
  by_cases hlong : 10 < T
  · have h1 : k.follow cs allowed f = Motion.rest ⟨f.time, p⟩ := by
      have e : f = ⟨f.time, p⟩ := by rw [← hg f (by simp)]
      unfold Motion.follow
      dsimp only
      rw [if_pos (Or.inl hlong), ← e]
    have h2 := fold_rest cs allowed p gs (fun f hf => hg f (by simp [hf])) f.time
    have h3 : 0 ≤ C * γ ^ (f :: gs).length := mul_nonneg hC0 (pow_nonneg g0 _)
    rw [List.foldl_cons, h1, h2, sub_self, sub_self, abs_zero]
    exact ⟨h3, h3⟩
  · set L := k.time :: (f :: gs).map Fix.time with hL
    have hL2 : 2 ≤ L.length := by rw [hL]; simp
    set pos : ℕ → Position := fun i => ⟨p.x, p.y, "", 0, continued L (i + 1), false, .INDOOR, 0⟩ with hpos
    have hnear : Near p.x p.y 0 pos := ⟨fun _ => by simp [hpos], fun _ => by simp [hpos]⟩
    have hin : ∀ j, j < L.length → continued L j = L.getD j 0 := fun j hj => if_pos hj
    have hbef : ∀ n, before (stateOf k).position.ts pos n = continued L n := by
      intro n
      cases n with
      | zero => rw [hin 0 (by omega)]; rfl
      | succ n => rfl
    have hint : Intervals (stateOf k).position.ts lo hi pos := by
      refine ⟨fun n => ?_, fun n => ?_, fun n => ?_⟩
      · rw [hbef]; exact (continued_steady hlo1 hhi1 hL2 hst hinc n).1
      · rw [hbef]; exact (continued_steady hlo1 hhi1 hL2 hst hinc n).2.1
      · rw [hbef]; exact (continued_steady hlo1 hhi1 hL2 hst hinc n).2.2
    have hc := hconv (fun _ => allowed) (stateOf k) p.x p.y 0 pos hnear hint (f :: gs).length
    obtain ⟨⟨-, -, e2, -⟩, -⟩ := fold_ab hacc allowed k p (f :: gs) hg pos (fun _ => rfl) (by
      intro i hi'
      show continued L (i + 1) = _
      rw [hin (i + 1) (by rw [hL]; simpa using hi'), hL, List.getD_cons_succ, List.getD_eq_getElem _ _ (by simpa using hi'), List.getElem_map]) hinc
      (f :: gs).length le_rfl
    rw [List.take_length] at e2
    simp only [mul_zero, add_zero] at hc
    have ex : (abIterate (abParams cs) (fun _ => allowed) (stateOf k) pos (f :: gs).length).position.x =
        ((f :: gs).foldl (Motion.follow cs allowed) k).place.x := congrArg (·.x) e2
    have ey : (abIterate (abParams cs) (fun _ => allowed) (stateOf k) pos (f :: gs).length).position.y =
        ((f :: gs).foldl (Motion.follow cs allowed) k).place.y := congrArg (·.y) e2
    rw [ex, ey] at hc
    have hT0 : (((pos 0).ts - (stateOf k).position.ts : Int) : ℝ) / 1000 = T := by
      have : (pos 0).ts = f.time := by
        show continued L 1 = _
        rw [hin 1 (by omega), hL]; rfl
      rw [this, hT]; rfl
    rw [hT0] at hc
    have hTpos : 0 < T := by
      have h1 : k.time < f.time := (List.pairwise_cons.mp hinc).1 f.time (by simp)
      have : (0 : ℝ) < ((f.time - k.time : Int) : ℝ) := by exact_mod_cast (by omega : 0 < f.time - k.time)
      exact div_pos this (by norm_num)
    have hγn : 0 ≤ γ ^ (f :: gs).length := pow_nonneg g0 _
    have bx : |k.speed.x * T| ≤ 10 * |k.speed.x| := by
      rw [abs_mul, abs_of_pos hTpos, mul_comm]
      exact mul_le_mul_of_nonneg_right (not_lt.mp hlong) a3
    have bY : |k.speed.y * T| ≤ 10 * |k.speed.y| := by
      rw [abs_mul, abs_of_pos hTpos, mul_comm]
      exact mul_le_mul_of_nonneg_right (not_lt.mp hlong) a4
    refine ⟨hc.1.trans (mul_le_mul_of_nonneg_right ?_ hγn), hc.2.trans (mul_le_mul_of_nonneg_right ?_ hγn)⟩
    · show 20 * (|k.place.x - p.x| + |k.speed.x * T|) ≤ C
      rw [hC]; linarith
    · show 20 * (|k.place.y - p.y| + |k.speed.y * T|) ≤ C
      rw [hC]; linarith

/-! ## The windows of a history -/

/-- The closed windows of a longer history. -/
theorem closed_append (ls : List Level) (cs : CommonSettings) (ms ns : List Measurement) :
    ∃ new, closedWindows ls cs (ms ++ ns) = closedWindows ls cs ms ++ new := by
  induction ns using List.reverseRecOn with
  | nil => exact ⟨[], by simp⟩
  | append_singleton ns m ih =>
    obtain ⟨new, e⟩ := ih
    rw [← List.append_assoc, closedWindows_snoc, e, List.append_assoc]
    exact ⟨_, rfl⟩

/-- The last closed window. -/
theorem closed_last (ls : List Level) (cs : CommonSettings) (ms : List Measurement) :
    (closedWindows ls cs ms).getLast? = (windows ls cs ms).closed := by
  induction ms using List.reverseRecOn with
  | nil => rfl
  | append_singleton ms m ih =>
    rw [closedWindows_snoc]
    by_cases hh : Heard ls cs m
    · obtain ⟨d, hd, ha⟩ := hh
      have hw : windows ls cs (ms ++ [m]) = (windows ls cs ms).hear (spanOf cs) ⟨d, m.ts⟩ := by
        rw [windows_snoc]
        obtain ⟨md, mts⟩ := m
        dsimp only at hd ⊢
        subst hd
        exact take_heard _ ha
      by_cases hc : spanOf cs ≤ m.ts - (windows ls cs ms).opened.getD m.ts
      · rw [if_pos ⟨⟨d, hd, ha⟩, hc⟩, hw]
        unfold Windows.hear
        dsimp only
        rw [if_pos hc]
        simp
      · rw [if_neg (fun h => hc h.2), hw]
        unfold Windows.hear
        dsimp only
        rw [if_neg hc]
        simpa using ih
    · rw [if_neg (fun h => hh h.1), windows_snoc, take_not_heard _ hh]
      simpa using ih

/-- The closing times increase. -/
theorem closed_sorted {ls : List Level} {cs : CommonSettings} (hs : 0 < spanOf cs) (ms : List Measurement) :
    ((closedWindows ls cs ms).map (·.1)).Pairwise (· < ·) ∧
    ∀ w ∈ closedWindows ls cs ms, ∃ o, (windows ls cs ms).opened = some o ∧ w.1 ≤ o := by
  induction ms using List.reverseRecOn with
  | nil => rw [closedWindows_nil]; simp
  | append_singleton ms m ih =>
    rw [closedWindows_snoc]
    by_cases hh : Heard ls cs m
    · obtain ⟨d, hd, ha⟩ := hh
      have hw : windows ls cs (ms ++ [m]) = (windows ls cs ms).hear (spanOf cs) ⟨d, m.ts⟩ := by
        rw [windows_snoc]
        obtain ⟨md, mts⟩ := m
        dsimp only at hd ⊢
        subst hd
        exact take_heard _ ha
      by_cases hc : spanOf cs ≤ m.ts - (windows ls cs ms).opened.getD m.ts
      · rw [if_pos ⟨⟨d, hd, ha⟩, hc⟩, hw]
        unfold Windows.hear
        dsimp only
        rw [if_pos hc]
        have hlt : ∀ w ∈ closedWindows ls cs ms, w.1 < m.ts := by
          intro w hw
          obtain ⟨o, ho, hle⟩ := ih.2 w hw
          rw [ho, Option.getD_some] at hc
          omega
        refine ⟨?_, ?_⟩
        · rw [List.map_append, List.pairwise_append]
          refine ⟨ih.1, by simp, ?_⟩
          intro a ha b hb
          obtain ⟨w, hw, rfl⟩ := List.mem_map.mp ha
          have : b = m.ts := by simpa using hb
          rw [this]
          exact hlt w hw
        · intro w hw
          refine ⟨m.ts, rfl, ?_⟩
          rcases List.mem_append.mp hw with hw | hw
          · exact (hlt w hw).le
          · have : w = (m.ts, (windows ls cs ms).pending ++ [⟨d, m.ts⟩]) := by simpa using hw
            rw [this]
      · rw [if_neg (fun h => hc h.2), hw]
        unfold Windows.hear
        dsimp only
        rw [if_neg hc]
        refine ⟨by simpa using ih.1, fun w hw => ?_⟩
        obtain ⟨o, ho, hle⟩ := ih.2 w (by simpa using hw)
        exact ⟨o, by rw [ho]; rfl, hle⟩
    · rw [if_neg (fun h => hh h.1), windows_snoc, take_not_heard _ hh]
      simpa using ih

theorem fixes_append (lv : Level) (a b : List (Int × List RadioMeasurement)) : fixes lv (a ++ b) = fixes lv a ++ fixes lv b :=
  List.filterMap_append

/-- Windows that all have their fix at the same place. -/
theorem fixes_same {lv : Level} {p : XYPoint} {ws : List (Int × List RadioMeasurement)} (h : ∀ w ∈ ws, FixAt lv w.2 p) :
    fixes lv ws = ws.map fun w => ⟨w.1, p⟩ := by
  induction ws using List.reverseRecOn with
  | nil => rfl
  | append_singleton ws w ih =>
    rw [(fixes_snoc lv ws w.1 w.2).1 p (h w (by simp)), ih (fun w hw => h w (by simp [hw]))]
    simp

/-- The times of fixes are closing times. -/
theorem fixes_times (lv : Level) (ws : List (Int × List RadioMeasurement)) : ((fixes lv ws).map Fix.time).Sublist (ws.map (·.1)) := by
  induction ws using List.reverseRecOn with
  | nil => simp [fixes_nil]
  | append_singleton ws w ih =>
    by_cases h : ∃ p, FixAt lv w.2 p
    · obtain ⟨p, hp⟩ := h
      rw [(fixes_snoc lv ws w.1 w.2).1 p hp, List.map_append, List.map_append]
      exact ih.append (List.Sublist.refl _)
    · rw [(fixes_snoc lv ws w.1 w.2).2 h, List.map_append]
      exact ih.trans (List.sublist_append_left _ _)

theorem downToCm_near (x : ℝ) : |downToCm x - x| ≤ 1 / 100 := by
  unfold downToCm
  have h1 := Int.floor_le (x * 100)
  have h2 := Int.lt_floor_add_one (x * 100)
  rw [abs_le]
  constructor <;> linarith

theorem clamp_near {x p lo hi : ℝ} (h1 : lo ≤ p) (h2 : p ≤ hi) : |min (max x lo) hi - p| ≤ |x - p| := by
  rcases le_total x lo with h | h
  · rw [max_eq_right h, min_eq_left (h1.trans h2), abs_of_nonpos (by linarith), abs_of_nonpos (by linarith)]
    linarith
  · rw [max_eq_left h]
    rcases le_total x hi with h' | h'
    · rw [min_eq_left h']
    · rw [min_eq_right h', abs_of_nonneg (by linarith), abs_of_nonneg (by linarith)]
      linarith

/-- The shown place is as near to a place in the box, up to one centimetre. -/
theorem shown_near {b : Box} {p q : XYPoint} (hp : Estim.Box.Covers b p) :
    |(shown b q).x - p.x| ≤ |q.x - p.x| + 1 / 100 ∧ |(shown b q).y - p.y| ≤ |q.y - p.y| + 1 / 100 := by
  obtain ⟨h1, h2, h3, h4⟩ := hp
  constructor
  · calc |(shown b q).x - p.x| ≤ |(shown b q).x - min (max q.x b.minCorner.x) b.maxCorner.x| + |min (max q.x b.minCorner.x) b.maxCorner.x - p.x| := abs_sub_le _ _ _
      _ ≤ 1 / 100 + |q.x - p.x| := add_le_add (downToCm_near _) (clamp_near (by linarith) (by linarith))
      _ = _ := by ring
  · calc |(shown b q).y - p.y| ≤ |(shown b q).y - min (max q.y b.minCorner.y) b.maxCorner.y| + |min (max q.y b.minCorner.y) b.maxCorner.y - p.y| := abs_sub_le _ _ _
      _ ≤ 1 / 100 + |q.y - p.y| := add_le_add (downToCm_near _) (clamp_near (by linarith) (by linarith))
      _ = _ := by ring

/-- The track settles. -/
theorem track_settles {cs : CommonSettings} (hacc : cs.useAccuracyForSmoothing = false) {lo hi : ℝ} (hlo1 : lo ≤ 1) (hhi1 : 1 ≤ hi)
    (hlo : Mild (weight cs) lo) (hhi : Mild (weight cs) hi) :
    ∃ γ, 0 ≤ γ ∧ γ < 1 ∧ ∀ (allowed : ℝ → ℝ → Prop) (fs : List Fix) (p : XYPoint), ∃ C, 0 ≤ C ∧ ∀ gs : List Fix, gs ≠ [] →
      (∀ f ∈ gs, f.place = p) → ((fs ++ gs).map Fix.time).Pairwise (· < ·) →
      Steady lo hi ((fs.getLast?.toList ++ gs).map Fix.time) →
      ∃ k, track cs allowed (fs ++ gs) = some k ∧ |k.place.x - p.x| ≤ C * γ ^ gs.length ∧ |k.place.y - p.y| ≤ C * γ ^ gs.length := by
  obtain ⟨γ, g0, g1, hset⟩ := fold_settles hacc hlo1 hhi1 hlo hhi
  refine ⟨γ, g0, g1, fun allowed fs p => ?_⟩
  rcases fs with - | ⟨a, - | ⟨b, fs⟩⟩
  · refine ⟨0, le_rfl, fun gs hne hg _ _ => ?_⟩
    have hz : ∀ k : Motion, k.place = p → |k.place.x - p.x| ≤ 0 * γ ^ gs.length ∧ |k.place.y - p.y| ≤ 0 * γ ^ gs.length := by
      intro k hk; rw [hk]; simp
    rcases gs with - | ⟨f, - | ⟨f', gs⟩⟩
    · exact absurd rfl hne
    · exact ⟨_, rfl, hz _ (hg f (by simp))⟩
    · refine ⟨_, rfl, hz _ ?_⟩
      have e : f' = ⟨f'.time, p⟩ := by rw [← hg f' (by simp)]
      rw [e]
      exact fold_rest cs allowed p gs (fun f hf => hg f (by simp [hf])) _
  · refine ⟨0, le_rfl, fun gs hne hg _ _ => ?_⟩
    rcases gs with - | ⟨f', gs⟩
    · exact absurd rfl hne
    · refine ⟨_, rfl, ?_⟩
      have e : f' = ⟨f'.time, p⟩ := by rw [← hg f' (by simp)]
      rw [e, fold_rest cs allowed p gs (fun f hf => hg f (by simp [hf])) _]
      simp
  · obtain ⟨C, hC⟩ := hset allowed (fs.foldl (Motion.follow cs allowed) (Motion.rest b)) p
    refine ⟨max C 0, le_max_right _ _, fun gs hne hg hinc hst => ?_⟩
    obtain ⟨last, hlast⟩ : ∃ l, (b :: fs).getLast? = some l := ⟨_, List.getLast?_eq_getLast_of_ne_nil (by simp)⟩
    have hlast' : (a :: b :: fs).getLast? = some last := by rw [List.getLast?_cons_cons]; exact hlast
    obtain ⟨l', e'⟩ := List.getLast?_eq_some_iff.mp hlast'
    have htime : (fs.foldl (Motion.follow cs allowed) (Motion.rest b)).time = last.time := by
      refine track_time cs allowed l' last ?_
      rw [← e']; rfl
    have hpair : (last.time :: gs.map Fix.time).Pairwise (· < ·) := by
      rw [e', List.append_assoc, List.map_append] at hinc
      exact (List.pairwise_append.mp hinc).2.1
    rw [hlast'] at hst
    obtain ⟨c1, c2⟩ := hC gs hg (by rw [htime]; exact hpair) (by rw [htime]; exact hst)
    refine ⟨gs.foldl (Motion.follow cs allowed) (fs.foldl (Motion.follow cs allowed) (Motion.rest b)), ?_, c1.trans ?_, c2.trans ?_⟩
    · show some ((fs ++ gs).foldl _ _) = _
      rw [List.foldl_append]
    all_goals exact mul_le_mul_of_nonneg_right (le_max_left _ _) (pow_nonneg g0 _)

/-- **C123.** A client with one floor that locates by zones and smooths with the alpha-beta filter comes to rest where its fixes are:
there is a rate below one (it depends on the settings only) such that, whatever the client was given before, if from then on the fix of every closed window is
at the place `p`, and the intervals between the fixes grow and shrink mildly (starting from the last fix before), an answer after `n` such windows
(while signals are heard) is OK and its place differs from `p` by at most a constant times the `n`-th power of the rate, plus one
centimetre, in each coordinate. -/
theorem C123_settles {lv : Level} {c : Cfg} (hc : Client [lv] c) (hp : SmoothZones c.cs) {lo hi : ℝ} (hlo1 : lo ≤ 1) (hhi1 : 1 ≤ hi)
    (hlo : Mild (weight c.cs) lo) (hhi : Mild (weight c.cs) hi) :
    ∃ γ, 0 ≤ γ ∧ γ < 1 ∧ ∀ (g : Garbage) (past : List (List Measurement)) (p : XYPoint), ∃ C, 0 ≤ C ∧
      ∀ (future : List (List Measurement)) (m : Measurement) (s : State) (outs : List (Output × DebugState))
        (new : List (Int × List RadioMeasurement)),
      navigateAll c (init c g) (past ++ future) = .ok (s, outs) →
      (∀ e ∈ taken (past ++ future) ++ [m], 0 < e.ts) → Fresh [lv] c.cs (taken (past ++ future)) m →
      closedWindows [lv] c.cs (taken (past ++ future) ++ [m]) = closedWindows [lv] c.cs (taken past) ++ new →
      (∀ w ∈ new, FixAt lv w.2 p) →
      Steady lo hi (((fixesOf lv c.cs (taken past)).getLast?.map Fix.time).toList ++ new.map (·.1)) →
      (∀ w, new.getLast? = some w → m.ts - w.1 < ⌊1000 * c.cs.deadReckoningTime⌋) → new ≠ [] →
      ∃ s' out dbg q, navigate c s [m] = .ok (s', [(out, dbg)]) ∧ out.status = .OK ∧ out.posLevel = lv.id ∧
        (⟨out.posLatitude, out.posLongitude⟩ : Geo.GeoPoint) = Geo.localToGps q lv.bindingPoint ∧
        |q.x - p.x| ≤ C * γ ^ new.length + 1 / 100 ∧ |q.y - p.y| ≤ C * γ ^ new.length + 1 / 100 := by
  obtain ⟨γ, g0, g1, hset⟩ := track_settles hp.accuracy hlo1 hhi1 hlo hhi
  refine ⟨γ, g0, g1, fun g past p => ?_⟩
  obtain ⟨C, hC0, hC⟩ := hset (c.env.allowed lv) (fixesOf lv c.cs (taken past)) p
  refine ⟨C, hC0, ?_⟩
  intro future m s outs new h hts hf hnew hfix hst hage hne
  obtain ⟨w, hw⟩ : ∃ w, new.getLast? = some w := ⟨_, List.getLast?_eq_getLast_of_ne_nil hne⟩
  have hlast : (windows [lv] c.cs (taken (past ++ future) ++ [m])).closed = some (w.1, w.2) := by
    rw [← closed_last, hnew, List.getLast?_append, hw]; rfl
  have hwfix := hfix w (List.mem_of_getLast? hw)
  obtain ⟨s', out, dbg, b, t, h1, hstr, htx, -, hin, -⟩ := C123_answer hc hp g _ h m hts hf hlast
  obtain ⟨b', t', hstr', htx', hpe, hcov⟩ := hwfix
  have hb : b = b' := strongest_unique hstr hstr'
  subst hb
  rw [htx] at htx'
  cases htx'
  rw [← hpe] at hin
  obtain ⟨e1, e2, -, ⟨k, hk, e3⟩, -⟩ := hin ⟨hcov, hage w hw⟩
  have hfs : fixesOf lv c.cs (taken (past ++ future) ++ [m]) = fixesOf lv c.cs (taken past) ++ new.map fun w => ⟨w.1, p⟩ := by
    unfold fixesOf
    rw [hnew, fixes_append, fixes_same hfix]
  have hinc : ((fixesOf lv c.cs (taken (past ++ future) ++ [m])).map Fix.time).Pairwise (· < ·) :=
    (closed_sorted (span_pos hp.toWindowed) _).1.sublist (fixes_times lv _)
  rw [hfs] at hinc hk
  obtain ⟨k', hk', c1, c2⟩ := hC (new.map fun w => ⟨w.1, p⟩) (by simpa using hne) (by
    intro f hf
    obtain ⟨w, -, rfl⟩ := List.mem_map.mp hf
    rfl) hinc (by
    have : ((fixesOf lv c.cs (taken past)).getLast?.toList ++ new.map fun w => (⟨w.1, p⟩ : Fix)).map Fix.time =
        ((fixesOf lv c.cs (taken past)).getLast?.map Fix.time).toList ++ new.map (·.1) := by
      rw [List.map_append, List.map_map]
      congr 1
      cases (fixesOf lv c.cs (taken past)).getLast? <;> rfl
    rw [this]
    exact hst)
  rw [hk] at hk'
  cases hk'
  rw [List.length_map] at c1 c2
  obtain ⟨n1, n2⟩ := shown_near (q := k.place) hcov
  exact ⟨s', out, dbg, _, h1, e1, e2, e3, by linarith, by linarith⟩

/-- **C123.** With the default settings it is enough that no interval is longer than four thirds of the one before it. -/
theorem C123_settles_default : Mild (weight {}) 0 ∧ Mild (weight {}) (4 / 3) := by
  have : weight {} = 1 / 2 := by unfold weight; norm_num
  rw [this]
  exact ⟨mild_default.1, mild_default.2.1⟩

end Verif.Track
