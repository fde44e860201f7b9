import Verif.Smooth.AbProps
import Verif.Smooth.PolyProps

/-! # Properties of the least squares smoother (C76) -/

namespace Verif.Smooth

open Verif.Geo (XYPoint)

/-! ## Specification -/

/-- One call of a public function of the smoother. -/
inductive LsOp where
  | smooth (pos : Position) (allowed : ℝ → ℝ → Prop)
  | reset (pos : Position)

/-- Effect of a call; `none` is undefined behaviour. -/
noncomputable def lsStep (P : FitParams) (useBarriers : Bool) (s : LsState) : LsOp → Option LsState
  | .smooth pos allowed => (lsSmooth P useBarriers allowed s pos).map Prod.snd
  | .reset pos => some (lsReset s pos)

/-- The object after a history of calls; the start time of a new object is arbitrary. -/
noncomputable def lsRun (P : FitParams) (useBarriers : Bool) (t0 : Int) (ops : List LsOp) : Option LsState :=
  ops.foldlM (lsStep P useBarriers) (lsInit t0)

/-! ## Lemmas -/

/-- Both fits have a history of their own. -/
def LsInv (P : FitParams) (s : LsState) : Prop :=
  (∃ ops, fitRun P ops = some s.fitX) ∧ (∃ ops, fitRun P ops = some s.fitY)

theorem fit_add_defined (P : FitParams) (hI : 0 ≤ P.timeInterval) (f : FitState)
    (hf : ∃ ops, fitRun P ops = some f) (x y : ℝ) :
    ∃ f', addSequencePoint P f x y = some f' ∧ ∃ ops, fitRun P ops = some f' := by
  obtain ⟨ops, h⟩ := hf
  obtain ⟨f', h', -⟩ := fit_inv P hI (ops ++ [.add x y])
  refine ⟨f', ?_, _, h'⟩
  rw [fitRun_append, h] at h'
  exact h'

theorem fit_predict (P : FitParams) (f : FitState) (hf : ∃ ops, fitRun P ops = some f) (t : ℝ) :
    ∃ ops, fitRun P ops = some (predict P f t).2 := by
  obtain ⟨ops, h⟩ := hf
  exact ⟨ops ++ [.predict t], by rw [fitRun_append, h]; rfl⟩

theorem fit_clear (P : FitParams) (f : FitState) (hf : ∃ ops, fitRun P ops = some f) :
    ∃ ops, fitRun P ops = some (fitClear f) := by
  obtain ⟨ops, h⟩ := hf
  exact ⟨ops ++ [.clear], by rw [fitRun_append, h]; rfl⟩

theorem lsSmooth_spec (P : FitParams) (hI : 0 ≤ P.timeInterval) (ub : Bool) (allowed : ℝ → ℝ → Prop)
    (s : LsState) (hs : LsInv P s) (pos : Position) :
    ∃ out s', lsSmooth P ub allowed s pos = some (out, s') ∧ LsInv P s' ∧
      out = { pos with x := out.x, y := out.y } ∧
      (out = pos ∨ ((ub = true → allowed out.x out.y) ∧
        ∃ fx fy : FitState, let t : ℝ := ((pos.ts - s.startTime : Int) : ℝ) / 1000
        addSequencePoint P s.fitX t pos.x = some fx ∧ addSequencePoint P s.fitY t pos.y = some fy ∧
        (predict P fx t).1 = some out.x ∧ (predict P fy t).1 = some out.y)) ∧
      (s.wasCalled = false → out = pos) := by
  unfold lsSmooth
  by_cases hc : s.wasCalled = false
  · rw [if_pos hc]
    exact ⟨pos, _, rfl, hs, rfl, Or.inl rfl, fun _ => rfl⟩
  rw [if_neg hc]
  dsimp only
  set t : ℝ := ((pos.ts - s.startTime : Int) : ℝ) / 1000
  obtain ⟨fx, ex, hx⟩ := fit_add_defined P hI s.fitX hs.1 t pos.x
  obtain ⟨fy, ey, hy⟩ := fit_add_defined P hI s.fitY hs.2 t pos.y
  rw [ex, ey]
  dsimp only
  have px := fit_predict P fx hx t
  have py := fit_predict P fy hy t
  by_cases hb : ub = true ∧ ¬ ∃ x y, (predict P fx t).1 = some x ∧ (predict P fy t).1 = some y ∧ allowed x y
  · rw [if_pos hb]
    exact ⟨pos, _, rfl, ⟨fit_clear P _ px, fit_clear P _ py⟩, rfl, Or.inl rfl, fun _ => rfl⟩
  rw [if_neg hb]
  cases h1 : (predict P fx t).1 with
  | none => exact ⟨pos, _, rfl, ⟨px, py⟩, rfl, Or.inl rfl, fun _ => rfl⟩
  | some x =>
    cases h2 : (predict P fy t).1 with
    | none => exact ⟨pos, _, rfl, ⟨px, py⟩, rfl, Or.inl rfl, fun _ => rfl⟩
    | some y =>
      refine ⟨_, _, rfl, ⟨px, py⟩, rfl, Or.inr ⟨?_, fx, fy, rfl, rfl, ?_, ?_⟩, fun h => absurd h hc⟩
      · intro hu
        by_contra hna
        apply hb
        refine ⟨hu, ?_⟩
        rintro ⟨x', y', e1, e2, ha⟩
        rw [h1] at e1; rw [h2] at e2
        injection e1 with e1; injection e2 with e2
        subst e1; subst e2
        exact hna ha
      · exact h1
      · exact h2

theorem ls_inv (P : FitParams) (hI : 0 ≤ P.timeInterval) (ub : Bool) (t0 : Int) (ops : List LsOp) :
    ∃ s, lsRun P ub t0 ops = some s ∧ LsInv P s := by
  induction ops using List.reverseRecOn with
  | nil => exact ⟨lsInit t0, rfl, ⟨[], rfl⟩, ⟨[], rfl⟩⟩
  | append_singleton ops op ih =>
    obtain ⟨s, hs, hi⟩ := ih
    have e : lsRun P ub t0 (ops ++ [op]) = lsStep P ub s op := by
      unfold lsRun at hs ⊢
      rw [List.foldlM_append, hs]
      simp
    rw [e]
    cases op with
    | reset p => exact ⟨_, rfl, fit_clear P _ hi.1, fit_clear P _ hi.2⟩
    | smooth pos allowed =>
      obtain ⟨out, s', h, h', -⟩ := lsSmooth_spec P hI ub allowed s hi pos
      exact ⟨s', by simp [lsStep, h], h'⟩

/-! ## C76 -/

/-- **C76.** With a non-negative averaging time no history is undefined; every output is the given position
with at most its coordinates changed; with barriers in use, changed coordinates are allowed ones; the
first position is returned as it is. -/
theorem C76_output (P : FitParams) (hI : 0 ≤ P.timeInterval) (ub : Bool) (t0 : Int) (ops : List LsOp)
    (pos : Position) (allowed : ℝ → ℝ → Prop) :
    ∃ s out s', lsRun P ub t0 ops = some s ∧ lsSmooth P ub allowed s pos = some (out, s') ∧
      out = { pos with x := out.x, y := out.y } ∧
      (ub = true → out = pos ∨ allowed out.x out.y) ∧
      (ops = [] → out = pos) := by
  obtain ⟨s, hs, hi⟩ := ls_inv P hI ub t0 ops
  obtain ⟨out, s', h1, -, h3, h4, h5⟩ := lsSmooth_spec P hI ub allowed s hi pos
  refine ⟨s, out, s', hs, h1, h3, fun hu => h4.imp id (fun h => h.1 hu), fun h0 => h5 ?_⟩
  subst h0
  cases hs; rfl

/-- **C76.** A reset forgets the window: the next position is returned as it is (its own single sample). -/
theorem C76_reset (P : FitParams) (hI : 0 ≤ P.timeInterval) (s : LsState) (q pos : Position) :
    ∃ s', lsSmooth P false (fun _ _ => True) (lsReset s q) pos = some (pos, s') := by
  unfold lsSmooth
  by_cases hc : s.wasCalled = false
  · rw [if_pos (by exact hc)]; exact ⟨_, rfl⟩
  rw [if_neg (by exact hc)]
  have add : ∀ (f : FitState) (t y : ℝ), ∃ f', addSequencePoint P (fitClear f) t y = some f' ∧
      f'.xs = [t] ∧ f'.ys = [y] := by
    intro f t y
    unfold addSequencePoint
    simp only [fitClear, List.isEmpty_nil, if_true, true_or, List.nil_append, removeOldPoints, sub_self]
    rw [if_neg (not_lt.mpr hI)]
    exact ⟨_, rfl, rfl, rfl⟩
  dsimp only [lsReset]
  set t : ℝ := ((pos.ts - q.ts : Int) : ℝ) / 1000
  obtain ⟨fx, ex, x1, x2⟩ := add s.fitX t pos.x
  obtain ⟨fy, ey, y1, y2⟩ := add s.fitY t pos.y
  rw [ex, ey]
  dsimp only
  rw [if_neg (by simp), C46_single P fx t pos.x x1 x2 t, C46_single P fy t pos.y y1 y2 t]
  exact ⟨_, rfl⟩

/-! ### Divergence for a target that stops -/

/-- The measurements: at 0, 1 s at x = 0, then at x = 1 every second. -/
noncomputable def stopTrack (n : ℕ) : Position :=
  ⟨if n ≤ 1 then 0 else 1, 0, "1", 1, 1000 * n, false, .INDOOR, 0⟩

/-- The outputs of a new smoother with the default settings for these measurements. -/
noncomputable def stopOutputs : ℕ → Option (Position × LsState)
  | 0 => lsSmooth (lsParams {}) false (fun _ _ => True) (lsInit 0) (stopTrack 0)
  | n + 1 => (stopOutputs n).bind (fun r =>
      lsSmooth (lsParams {}) false (fun _ _ => True) r.2 (stopTrack (n + 1)))

theorem lsParams_default : lsParams {} = ⟨1, 1, 0, 1 / 2⟩ := by
  unfold lsParams
  norm_num

theorem stop_coeff : ∃ c, leastSquaresCoeff 1 [1, 2] [0, 1] = some c ∧ c 0 = -1 ∧ c 1 = 1 := by
  obtain ⟨c, hc, -, huniq⟩ := leastSquares_optimal 1 [(1, 0), (2, 1)] (by
    exact Finset.one_lt_card.mpr ⟨1, by simp, 2, by simp, by norm_num⟩)
  have h := huniq (fun i => if i = 0 then -1 else 1) (by
    have hz : sse 1 [(1, 0), (2, 1)] (fun i => if i = 0 then -1 else 1) = 0 := by
      simp [sse, evalPoly, Finset.sum_range_succ]; norm_num
    rw [hz]
    unfold sse
    refine List.sum_nonneg (fun x hx => ?_)
    obtain ⟨q, -, rfl⟩ := List.mem_map.mp hx
    exact sq_nonneg _)
  refine ⟨c, hc, ?_, ?_⟩
  · have := h 0 (by norm_num); simpa using this.symm
  · have := h 1 (by norm_num); simpa using this.symm

/-- The state while the target stands still. -/
theorem stop_state (c : ℕ → ℝ) (hc : leastSquaresCoeff 1 [1, 2] [0, 1] = some c) (h0 : c 0 = -1) (h1 : c 1 = 1)
    (n : ℕ) : ∃ out s l, stopOutputs (n + 2) = some (out, s) ∧ s.wasCalled = true ∧ s.startTime = 0 ∧
      s.fitX = ⟨[1, 2], [0, 1], some c, some l⟩ ∧ s.fitY.xs = [1] ∧ s.fitY.ys = [0] ∧ out.x = l ∧
      out.y = 0 ∧ ((n : ℝ) + 1) / 2 ≤ l := by
  induction n with
  | zero =>
    have e0 : stopOutputs 0 = some (stopTrack 0, ⟨true, fitInit, fitInit, 0⟩) := by
      simp [stopOutputs, lsSmooth, lsInit, stopTrack]
    have a0 : addSequencePoint ⟨1, 1, 0, 1 / 2⟩ fitInit 1 0 =
        some ⟨[1], [0], some (fun _ => 0), some 0⟩ := by
      simp only [addSequencePoint, fitInit, removeOldPoints, List.isEmpty_nil, if_true, true_or,
        List.nil_append, sub_self]
      rw [if_neg (by norm_num)]
      simp
    have p0 : predict ⟨1, 1, 0, 1 / 2⟩ ⟨[1], [0], some (fun _ => 0), some 0⟩ 1 =
        (some 0, ⟨[1], [0], some (fun _ => 0), some 0⟩) := by
      simp [predict, lagrangeSolution, List.range_succ]
    have e1 : stopOutputs 1 = some (stopTrack 1, ⟨true, ⟨[1], [0], some (fun _ => 0), some 0⟩,
        ⟨[1], [0], some (fun _ => 0), some 0⟩, 0⟩) := by
      rw [stopOutputs, e0, Option.bind_some, lsParams_default]
      unfold lsSmooth
      rw [if_neg (by simp)]
      have ht : (((stopTrack (0 + 1)).ts - 0 : Int) : ℝ) / 1000 = 1 := by simp [stopTrack]
      have hx : (stopTrack (0 + 1)).x = 0 := by simp [stopTrack]
      have hy : (stopTrack (0 + 1)).y = 0 := by simp [stopTrack]
      dsimp only
      rw [ht, hx, hy, a0]
      dsimp only
      rw [if_neg (by simp), p0]
      simp [stopTrack]
    have a1 : addSequencePoint ⟨1, 1, 0, 1 / 2⟩ ⟨[1], [0], some (fun _ => 0), some 0⟩ 2 1 =
        some ⟨[1, 2], [0, 1], some c, some 0⟩ := by
      simp only [addSequencePoint, removeOldPoints, List.isEmpty_cons, Bool.false_eq_true, if_false,
        List.getLast?_singleton, List.cons_append, List.nil_append, ne_eq, Option.some.injEq,
        zero_ne_one, not_false_eq_true, or_true, if_true]
      rw [if_neg (by norm_num)]
      simp [hc]
    have a1y : addSequencePoint ⟨1, 1, 0, 1 / 2⟩ ⟨[1], [0], some (fun _ => 0), some 0⟩ 2 0 =
        some ⟨[1], [0], some (fun _ => 0), some 0⟩ := by
      simp [addSequencePoint]
    have p1 : predict ⟨1, 1, 0, 1 / 2⟩ ⟨[1, 2], [0, 1], some c, some 0⟩ 2 =
        (some (1 / 2), ⟨[1, 2], [0, 1], some c, some (1 / 2)⟩) := by
      simp [predict, leastSquaresSolution, List.range_succ, h0, h1]
      norm_num
    have p1y : predict ⟨1, 1, 0, 1 / 2⟩ ⟨[1], [0], some (fun _ => 0), some 0⟩ 2 =
        (some 0, ⟨[1], [0], some (fun _ => 0), some 0⟩) := by
      simp [predict, lagrangeSolution, List.range_succ]
    have e2 : stopOutputs 2 = some ({ stopTrack 2 with x := 1 / 2, y := 0 },
        ⟨true, ⟨[1, 2], [0, 1], some c, some (1 / 2)⟩, ⟨[1], [0], some (fun _ => 0), some 0⟩, 0⟩) := by
      rw [stopOutputs, e1, Option.bind_some, lsParams_default]
      unfold lsSmooth
      rw [if_neg (by simp)]
      have ht : (((stopTrack (1 + 1)).ts - 0 : Int) : ℝ) / 1000 = 2 := by simp [stopTrack]; norm_num
      have hx : (stopTrack (1 + 1)).x = 1 := by simp [stopTrack]
      have hy : (stopTrack (1 + 1)).y = 0 := by simp [stopTrack]
      dsimp only
      rw [ht, hx, hy, a1, a1y]
      dsimp only
      rw [if_neg (by simp), p1, p1y]
    exact ⟨_, _, 1 / 2, e2, rfl, rfl, rfl, rfl, rfl, rfl, rfl, by norm_num⟩
  | succ n ih =>
    obtain ⟨out, s, l, e, k1, k2, k3, k4, k5, -, -, k6⟩ := ih
    set t : ℝ := (n : ℝ) + 3 with ht
    have hts : (((stopTrack (n + 2 + 1)).ts - s.startTime : Int) : ℝ) / 1000 = t := by
      rw [k2]; simp [stopTrack, ht]; ring
    have hx : (stopTrack (n + 2 + 1)).x = 1 := by simp [stopTrack]
    have hy : (stopTrack (n + 2 + 1)).y = 0 := by simp [stopTrack]
    have a1 : addSequencePoint ⟨1, 1, 0, 1 / 2⟩ s.fitX t 1 = some s.fitX := by
      rw [k3]; simp [addSequencePoint]
    have a2 : ∃ fy, addSequencePoint ⟨1, 1, 0, 1 / 2⟩ s.fitY t 0 = some fy ∧ fy.xs = [1] ∧ fy.ys = [0] := by
      unfold addSequencePoint
      rw [k5]
      simp only [List.isEmpty_cons, Bool.false_eq_true, if_false, List.getLast?_singleton, ne_eq,
        not_true_eq_false, or_self]
      exact ⟨_, rfl, k4, rfl⟩
    obtain ⟨fy, a2, y1, y2⟩ := a2
    have p1 : predict ⟨1, 1, 0, 1 / 2⟩ s.fitX t = (some ((t - 1) * (1 / 2) + l * (1 - 1 / 2)),
        ⟨[1, 2], [0, 1], some c, some ((t - 1) * (1 / 2) + l * (1 - 1 / 2))⟩) := by
      rw [k3]
      have : leastSquaresSolution ⟨1, 1, 0, 1 / 2⟩ c t = t - 1 := by
        simp [leastSquaresSolution, List.range_succ, h0, h1]; ring
      simp only [predict, List.length_cons, List.length_nil]
      rw [if_neg (by norm_num), if_neg (by norm_num), this]
    have p2 := C46_single ⟨1, 1, 0, 1 / 2⟩ fy 1 0 y1 y2 t
    have p2s : (predict ⟨1, 1, 0, 1 / 2⟩ fy t).2.xs = [1] ∧ (predict ⟨1, 1, 0, 1 / 2⟩ fy t).2.ys = [0] := by
      unfold predict
      dsimp only
      split_ifs <;> exact ⟨y1, y2⟩
    refine ⟨{ stopTrack (n + 2 + 1) with x := (t - 1) * (1 / 2) + l * (1 - 1 / 2), y := 0 },
      ⟨s.wasCalled, ⟨[1, 2], [0, 1], some c, some ((t - 1) * (1 / 2) + l * (1 - 1 / 2))⟩,
        (predict ⟨1, 1, 0, 1 / 2⟩ fy t).2, s.startTime⟩, (t - 1) * (1 / 2) + l * (1 - 1 / 2), ?_, ?_⟩
    · rw [show n + 1 + 2 = (n + 2) + 1 by ring, stopOutputs, e, Option.bind_some, lsParams_default]
      unfold lsSmooth
      rw [if_neg (by rw [k1]; simp)]
      dsimp only
      rw [hts, hx, hy, a1, a2]
      dsimp only
      rw [if_neg (by simp), p1, p2]
    · refine ⟨k1, k2, rfl, p2s.1, p2s.2, rfl, rfl, ?_⟩
      push_cast
      linarith

/-- **C76.** The least squares smoother does not follow a target that stops: repeated coordinates are not
stored, and the line through the old samples is prolonged. With the default settings, a target that
moves by one metre and then stands still is reported farther away than any bound. -/
theorem C76_diverges_witness (bound : ℝ) :
    ∃ n out s, stopOutputs n = some (out, s) ∧ (stopTrack n).x ≤ 1 ∧ bound < out.x := by
  obtain ⟨c, hc, h0, h1⟩ := stop_coeff
  obtain ⟨n, hn⟩ := exists_nat_gt (2 * bound)
  obtain ⟨out, s, l, e, -, -, -, -, -, hx, -, hl⟩ := stop_state c hc h0 h1 n
  refine ⟨n + 2, out, s, e, ?_, ?_⟩
  · unfold stopTrack; split_ifs <;> norm_num
  · rw [hx]; linarith

end Verif.Smooth
