import Verif.Smooth.DeadSpec
import Verif.Smooth.LsProps

/-!
# C151: two places of one time in the least squares smoother
-/

namespace Verif.Smooth

/-- The last prediction is not finite, and `(t, y)` is the newest sample. -/
def Dead (f : FitState) (t y : ℝ) : Prop :=
  f.lastOutput = none ∧ ∃ xs ys : List ℝ, f.xs = xs ++ [t] ∧ f.ys = ys ++ [y] ∧ xs.length = ys.length

theorem remove_keeps_two {interval t t' : ℝ} (hI : 0 ≤ interval) (ht : t' - t ≤ interval) (y y' : ℝ) (xs : List ℝ) :
    ∀ ys : List ℝ, xs.length = ys.length → ∃ xs' ys' : List ℝ,
      removeOldPoints interval t' (xs ++ [t, t']) (ys ++ [y, y']) = some (xs' ++ [t, t'], ys' ++ [y, y']) ∧ xs'.length = ys'.length := by
  induction xs with
  | nil =>
    intro ys h
    have h0 : ys = [] := List.length_eq_zero_iff.mp h.symm
    rw [h0]
    refine ⟨[], [], ?_, rfl⟩
    rw [List.nil_append, List.nil_append, removeOldPoints, if_neg (not_lt.mpr ht)]
  | cons x xs ih =>
    intro ys h
    cases ys with
    | nil => simp at h
    | cons v ys =>
      have h' : xs.length = ys.length := by simpa using h
      rw [List.cons_append, List.cons_append, removeOldPoints]
      by_cases hx : t' - x > interval
      · rw [if_pos hx]
        exact ih ys h'
      · rw [if_neg hx]
        exact ⟨x :: xs, v :: ys, rfl, h⟩

/-- A dead fit stays dead. -/
theorem fit_dead (P : FitParams) (hP : P.power = 1) (hI : 0 ≤ P.timeInterval) (f : FitState) (t y t' y' : ℝ) (h : Dead f t y)
    (hy : y ≠ y') (ht : t' - t ≤ P.timeInterval) :
    ∃ f', addSequencePoint P f t' y' = some f' ∧ (predict P f' t').1 = none ∧ Dead (predict P f' t').2 t' y' := by
  obtain ⟨h1, xs, ys, h2, h3, h4⟩ := h
  obtain ⟨xs', ys', k1, k2⟩ := remove_keeps_two hI ht y y' xs ys h4
  unfold addSequencePoint
  dsimp only
  have hc : f.ys.isEmpty = true ∨ f.ys.getLast? ≠ some y' := by
    right
    rw [h3, List.getLast?_concat]
    simpa using hy
  rw [if_pos hc, h2, h3, List.append_assoc, List.append_assoc]
  rw [show [t] ++ [t'] = [t, t'] from rfl, show [y] ++ [y'] = [y, y'] from rfl, k1]
  dsimp only
  refine ⟨_, rfl, ?_⟩
  have hlen : (ys' ++ [y, y']).length = ys'.length + 2 := by simp
  have hpred : ∀ c : Option (ℕ → ℝ), predict P { f with xs := xs' ++ [t, t'], ys := ys' ++ [y, y'], coeff := c } t' =
      (none, { f with xs := xs' ++ [t, t'], ys := ys' ++ [y, y'], coeff := c, lastOutput := none }) := by
    intro c
    unfold predict
    dsimp only
    rw [hlen, if_neg (by omega), if_neg (by rw [hP]; omega), h1]
    cases c <;> rfl
  rw [hpred]
  refine ⟨rfl, rfl, xs' ++ [t], ys' ++ [y], ?_, ?_, by simp [k2]⟩ <;> simp

/-- Both fits of the smoother are dead, and `p` is the newest place. -/
structure Off (s : LsState) (p : Position) : Prop where
  called : s.wasCalled = true
  x : Dead s.fitX (((p.ts - s.startTime : Int) : ℝ) / 1000) p.x
  y : Dead s.fitY (((p.ts - s.startTime : Int) : ℝ) / 1000) p.y

theorem smooth_off (P : FitParams) (hP : P.power = 1) (hI : 0 ≤ P.timeInterval) (s : LsState) (p q : Position) (h : Off s p)
    (hm : Moves P.timeInterval p q) : ∃ s', lsSmooth P false (fun _ _ => True) s q = some (q, s') ∧ Off s' q := by
  obtain ⟨hx, hy, ht⟩ := hm
  have ht' : ((q.ts - s.startTime : Int) : ℝ) / 1000 - ((p.ts - s.startTime : Int) : ℝ) / 1000 ≤ P.timeInterval := by
    rw [← sub_div]
    push_cast at ht ⊢
    rw [show (q.ts : ℝ) - s.startTime - (p.ts - s.startTime) = q.ts - p.ts by ring]
    exact ht
  obtain ⟨fx, a1, a2, a3⟩ := fit_dead P hP hI s.fitX _ _ _ _ h.x hx ht'
  obtain ⟨fy, b1, b2, b3⟩ := fit_dead P hP hI s.fitY _ _ _ _ h.y hy ht'
  unfold lsSmooth
  rw [if_neg (by rw [h.called]; decide)]
  dsimp only
  rw [a1, b1]
  dsimp only
  rw [if_neg (by simp), a2, b2]
  exact ⟨_, rfl, h.called, a3, b3⟩

theorem told_off (P : FitParams) (hP : P.power = 1) (hI : 0 ≤ P.timeInterval) (ps : List Position) : ∀ (s : LsState) (p : Position),
    Off s p → (p :: ps).IsChain (Moves P.timeInterval) → lsTold P s ps = some ps := by
  induction ps with
  | nil => intro s p _ _; rfl
  | cons q ps ih =>
    intro s p h hc
    obtain ⟨h1, h2⟩ := List.isChain_cons_cons.mp hc
    obtain ⟨s', k1, k2⟩ := smooth_off P hP hI s p q h h1
    rw [lsTold, k1]
    dsimp only
    rw [ih s' q k2 h2]
    rfl

/-- The first sample. -/
theorem fit_first (P : FitParams) (hP : P.power = 1) (hI : 0 ≤ P.timeInterval) (f : FitState) (hx : f.xs = []) (hy : f.ys = []) (t y : ℝ) :
    ∃ f', addSequencePoint P f t y = some f' ∧ predict P f' t = (some y, ⟨[t], [y], some (fun _ => 0), some y⟩) := by
  unfold addSequencePoint
  dsimp only
  rw [if_pos (Or.inl (by rw [hy]; rfl)), hx, hy, List.nil_append, List.nil_append, removeOldPoints,
    if_neg (by simpa using hI)]
  dsimp only
  refine ⟨_, rfl, ?_⟩
  unfold predict lagrangeSolution
  simp [hP]

/-- The normal equations of two samples of the time zero. -/
theorem coeff_twins (y y' : ℝ) : leastSquaresCoeff 1 [0, 0] [y, y'] = none := by
  unfold leastSquaresCoeff
  by_contra hc
  obtain ⟨x, hx⟩ := Option.ne_none_iff_exists'.mp hc
  have := (C44_two (fun m => powerSum [0, 0] (m % (1 + 1) + m / (1 + 1))) (momentSum [0, 0] [y, y'])).mp ⟨x, hx⟩
  apply this
  norm_num [powerSum]

/-- The second sample of the same time. -/
theorem fit_twin (P : FitParams) (hP : P.power = 1) (hI : 0 ≤ P.timeInterval) (y y' : ℝ) (hy : y ≠ y') :
    ∃ f', addSequencePoint P ⟨[0], [y], some (fun _ => 0), some y⟩ 0 y' = some f' ∧ (predict P f' 0).1 = none ∧
      Dead (predict P f' 0).2 0 y' := by
  unfold addSequencePoint
  dsimp only
  have hc : ([y].isEmpty = true ∨ [y].getLast? ≠ some y') := by
    right
    simpa using hy
  rw [if_pos hc]
  rw [show [(0 : ℝ)] ++ [0] = [0, 0] from rfl, show [y] ++ [y'] = [y, y'] from rfl, removeOldPoints, if_neg (by simpa using hI)]
  dsimp only
  refine ⟨_, rfl, ?_⟩
  rw [hP, if_pos (by simp), coeff_twins]
  unfold predict
  dsimp only
  rw [if_neg (by simp), if_neg (by rw [hP]; simp)]
  exact ⟨rfl, rfl, [0], [y], rfl, rfl, rfl⟩

/-- A smoother that has just started at the time of `p`. -/
structure Fresh (s : LsState) (p : Position) : Prop where
  called : s.wasCalled = true
  fitX : s.fitX.xs = [] ∧ s.fitX.ys = []
  fitY : s.fitY.xs = [] ∧ s.fitY.ys = []
  start : s.startTime = p.ts

theorem smooth_fresh (P : FitParams) (hP : P.power = 1) (hI : 0 ≤ P.timeInterval) (s : LsState) (p : Position) (h : Fresh s p) :
    lsSmooth P false (fun _ _ => True) s p =
      some (p, ⟨true, ⟨[0], [p.x], some (fun _ => 0), some p.x⟩, ⟨[0], [p.y], some (fun _ => 0), some p.y⟩, p.ts⟩) := by
  have e0 : ((p.ts - s.startTime : Int) : ℝ) / 1000 = 0 := by
    rw [h.start]
    simp
  obtain ⟨fx, a1, a2⟩ := fit_first P hP hI s.fitX h.fitX.1 h.fitX.2 0 p.x
  obtain ⟨fy, b1, b2⟩ := fit_first P hP hI s.fitY h.fitY.1 h.fitY.2 0 p.y
  unfold lsSmooth
  rw [if_neg (by rw [h.called]; decide)]
  dsimp only
  rw [e0, a1, b1]
  dsimp only
  rw [if_neg (by simp), a2, b2]
  dsimp only
  rw [h.called, h.start]

theorem smooth_twins (P : FitParams) (hP : P.power = 1) (hI : 0 ≤ P.timeInterval) (p q : Position) (h : Twins p q) :
    ∃ s', lsSmooth P false (fun _ _ => True)
      ⟨true, ⟨[0], [p.x], some (fun _ => 0), some p.x⟩, ⟨[0], [p.y], some (fun _ => 0), some p.y⟩, p.ts⟩ q = some (q, s') ∧ Off s' q := by
  obtain ⟨h1, h2, h3⟩ := h
  have e0 : ((q.ts - p.ts : Int) : ℝ) / 1000 = 0 := by
    rw [h1]
    simp
  obtain ⟨fx, a1, a2, a3⟩ := fit_twin P hP hI p.x q.x h2
  obtain ⟨fy, b1, b2, b3⟩ := fit_twin P hP hI p.y q.y h3
  unfold lsSmooth
  rw [if_neg (by simp)]
  dsimp only
  rw [e0, a1, b1]
  dsimp only
  rw [if_neg (by simp), a2, b2]
  refine ⟨_, rfl, rfl, ?_, ?_⟩
  · dsimp only
    rw [e0]
    exact a3
  · dsimp only
    rw [e0]
    exact b3

theorem told_fresh (P : FitParams) (hP : P.power = 1) (hI : 0 ≤ P.timeInterval) (s : LsState) (p q : Position) (h : Fresh s p)
    (ht : Twins p q) (ps : List Position) (hps : (q :: ps).IsChain (Moves P.timeInterval)) :
    lsTold P s (p :: q :: ps) = some (p :: q :: ps) := by
  obtain ⟨s', k1, k2⟩ := smooth_twins P hP hI p q ht
  rw [lsTold, smooth_fresh P hP hI s p h]
  dsimp only
  rw [lsTold, k1]
  dsimp only
  rw [told_off P hP hI ps s' q k2 hps]
  rfl

/-- **C151.** After the first place two places of the same time that differ: from then on every place of a user who moves is told as it
is given, without end - the smoother that was asked for does nothing. -/
theorem C151_start (cs : CommonSettings) (hI : 0 ≤ cs.sigAveragingTime) (t0 : Int) (first p q : Position) (h0 : first.ts = p.ts)
    (ht : Twins p q) (ps : List Position) (hps : (q :: ps).IsChain (Moves cs.sigAveragingTime)) :
    lsTold (lsParams cs) (lsInit t0) (first :: p :: q :: ps) = some (first :: p :: q :: ps) := by
  rw [lsTold]
  have e : lsSmooth (lsParams cs) false (fun _ _ => True) (lsInit t0) first = some (first, ⟨true, fitInit, fitInit, first.ts⟩) := by
    unfold lsSmooth
    rw [if_pos (show (lsInit t0).wasCalled = false from rfl)]
    rfl
  rw [e]
  dsimp only
  rw [told_fresh (lsParams cs) rfl hI _ p q ⟨rfl, ⟨rfl, rfl⟩, ⟨rfl, rfl⟩, h0⟩ ht ps hps]
  rfl

/-- **C151, another floor.** So do two different places of the same time right after a change of the floor, whatever came before. -/
theorem C151_floor (cs : CommonSettings) (hI : 0 ≤ cs.sigAveragingTime) (s : LsState) (hs : s.wasCalled = true) (p q : Position)
    (ht : Twins p q) (ps : List Position) (hps : (q :: ps).IsChain (Moves cs.sigAveragingTime)) :
    lsTold (lsParams cs) (lsReset s p) (p :: q :: ps) = some (p :: q :: ps) :=
  told_fresh (lsParams cs) rfl hI (lsReset s p) p q ⟨hs, ⟨rfl, rfl⟩, ⟨rfl, rfl⟩, rfl⟩ ht ps hps

/-- **C151, the way back.** A change of the floor makes the smoother work again: what it tells does not depend on what came before. -/
theorem C151_back (cs : CommonSettings) (hI : 0 ≤ cs.sigAveragingTime) (s s' : LsState) (hs : s.wasCalled = true)
    (hs' : s'.wasCalled = true) (p : Position) (ps : List Position) :
    lsTold (lsParams cs) (lsReset s p) (p :: ps) = lsTold (lsParams cs) (lsReset s' p) (p :: ps) := by
  rw [lsTold, lsTold, smooth_fresh (lsParams cs) rfl hI (lsReset s p) p ⟨hs, ⟨rfl, rfl⟩, ⟨rfl, rfl⟩, rfl⟩,
    smooth_fresh (lsParams cs) rfl hI (lsReset s' p) p ⟨hs', ⟨rfl, rfl⟩, ⟨rfl, rfl⟩, rfl⟩]

/-- The line through two samples of different times. -/
theorem line_two (t : ℝ) (ht : t ≠ 0) (y y' : ℝ) :
    ∃ c, leastSquaresCoeff 1 [0, t] [y, y'] = some c ∧ c 0 = y ∧ c 1 = (y' - y) / t := by
  obtain ⟨c, hc, -, huniq⟩ := leastSquares_optimal 1 [(0, y), (t, y')] (by
    exact Finset.one_lt_card.mpr ⟨0, by simp, t, by simp, ht.symm⟩)
  have h := huniq (fun i => if i = 0 then y else (y' - y) / t) (by
    have hz : sse 1 [(0, y), (t, y')] (fun i => if i = 0 then y else (y' - y) / t) = 0 := by
      have e : (y' - y) / t * t = y' - y := div_mul_cancel₀ _ ht
      simp [sse, evalPoly, Finset.sum_range_succ, e]
    rw [hz]
    unfold sse
    refine List.sum_nonneg (fun x hx => ?_)
    obtain ⟨q, -, rfl⟩ := List.mem_map.mp hx
    exact sq_nonneg _)
  refine ⟨c, hc, ?_, ?_⟩
  · have := h 0 (by norm_num); simpa using this.symm
  · have := h 1 (by norm_num); simpa using this.symm

/-- The second sample of another time. -/
theorem fit_second (P : FitParams) (hP : P.power = 1) (hS : P.timeShift = 0) (t y y' : ℝ) (ht : t ≠ 0) (hy : y ≠ y')
    (hI : t ≤ P.timeInterval) :
    ∃ f', addSequencePoint P ⟨[0], [y], some (fun _ => 0), some y⟩ t y' = some f' ∧
      (predict P f' t).1 = some (y' * P.newWeight + y * (1 - P.newWeight)) := by
  obtain ⟨c, hc, h0, h1⟩ := line_two t ht y y'
  unfold addSequencePoint
  dsimp only
  have hc' : ([y].isEmpty = true ∨ [y].getLast? ≠ some y') := by
    right
    simpa using hy
  rw [if_pos hc']
  rw [show [(0 : ℝ)] ++ [t] = [0, t] from rfl, show [y] ++ [y'] = [y, y'] from rfl, removeOldPoints,
    if_neg (by simpa using hI)]
  dsimp only
  refine ⟨_, rfl, ?_⟩
  rw [hP, if_pos (by simp), hc]
  unfold predict
  dsimp only
  rw [if_neg (by simp), if_neg (by rw [hP]; simp)]
  dsimp only
  have e : leastSquaresSolution P c t = y' := by
    unfold leastSquaresSolution
    rw [hP, hS]
    simp [List.range_succ, h0, h1]
    field_simp
    ring
  rw [e]

/-- **C151, what is lost.** A smoother that works: of two different places of different times the second is drawn towards the first by
the smoothing weight. -/
theorem C151_works (cs : CommonSettings) (hshift : cs.sigWindowShift = 0) (s : LsState)
    (hs : s.wasCalled = true) (p q : Position) (hm : Moves cs.sigAveragingTime p q) (hlt : p.ts < q.ts) :
    lsTold (lsParams cs) (lsReset s p) [p, q] = some [p, { q with
      x := q.x * min 1 (max 0 cs.smoothing) + p.x * (1 - min 1 (max 0 cs.smoothing))
      y := q.y * min 1 (max 0 cs.smoothing) + p.y * (1 - min 1 (max 0 cs.smoothing)) }] := by
  obtain ⟨hx, hy, ht⟩ := hm
  have hpos : 0 < ((q.ts - p.ts : Int) : ℝ) / 1000 := by
    have : (0 : ℝ) < ((q.ts - p.ts : Int) : ℝ) := by exact_mod_cast sub_pos.mpr hlt
    positivity
  have hI : 0 ≤ cs.sigAveragingTime := hpos.le.trans ht
  obtain ⟨fx, a1, a2⟩ := fit_second (lsParams cs) rfl hshift _ p.x q.x hpos.ne' hx ht
  obtain ⟨fy, b1, b2⟩ := fit_second (lsParams cs) rfl hshift _ p.y q.y hpos.ne' hy ht
  rw [lsTold, smooth_fresh (lsParams cs) rfl hI (lsReset s p) p ⟨hs, ⟨rfl, rfl⟩, ⟨rfl, rfl⟩, rfl⟩]
  dsimp only
  rw [lsTold]
  unfold lsSmooth
  rw [if_neg (by simp)]
  dsimp only
  rw [a1, b1]
  dsimp only
  rw [if_neg (by simp), a2, b2]
  rfl

/-- A user who walks by one metre a second in both directions. -/
noncomputable def walk (n : ℕ) : Position := ⟨n, n, "1", 1, 1000 * n, false, .INDOOR, 0⟩

/-- **C151, example.** Default settings. A user who walks by one metre a second is smoothed: at the first second half a metre is told.
With one more fix at the time of the first ones, three metres beside, no place of the whole walk is smoothed. -/
theorem C151_example (t0 : Int) (n : ℕ) :
    lsTold (lsParams {}) (lsInit t0) [walk 0, walk 0, walk 1] = some [walk 0, walk 0, { walk 1 with x := 1 / 2, y := 1 / 2 }] ∧
    lsTold (lsParams {}) (lsInit t0) (walk 0 :: { walk 0 with x := 3, y := 3 } :: walk 0 :: (List.range n).map (fun k => walk (k + 1))) =
      some (walk 0 :: { walk 0 with x := 3, y := 3 } :: walk 0 :: (List.range n).map (fun k => walk (k + 1))) := by
  constructor
  · have h := C151_works {} rfl ⟨true, fitInit, fitInit, 0⟩ rfl (walk 0) (walk 1)
      ⟨by simp [walk], by simp [walk], by norm_num [walk]⟩ (by simp [walk])
    rw [lsTold]
    have e : lsSmooth (lsParams {}) false (fun _ _ => True) (lsInit t0) (walk 0) =
        some (walk 0, lsReset ⟨true, fitInit, fitInit, 0⟩ (walk 0)) := by
      unfold lsSmooth
      rw [if_pos (show (lsInit t0).wasCalled = false from rfl)]
      rfl
    rw [e]
    dsimp only
    rw [h]
    norm_num [walk]
  · refine C151_start {} (by norm_num) t0 (walk 0) { walk 0 with x := 3, y := 3 } (walk 0) rfl ⟨rfl, ?_, ?_⟩ _ ?_
    · norm_num [walk]
    · norm_num [walk]
    · have e : (walk 0 :: (List.range n).map (fun k => walk (k + 1))) = (List.range (n + 1)).map walk := by
        rw [List.range_succ_eq_map]
        simp
      rw [e, List.isChain_map]
      refine (List.isChain_range_succ _ n).mpr (fun m _ => ⟨?_, ?_, ?_⟩)
      · simp [walk]
      · simp [walk]
      · simp [walk]
        linarith

end Verif.Smooth
