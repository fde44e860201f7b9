import Verif.Standalone.EstimModel
import Verif.Smooth.AbProps
import Mathlib.Data.List.Induction

/-!
# Property theorems for the standalone nearest transmitter estimator and its smoother: C69
-/

namespace Verif.Standalone

open Verif.Smooth

/-! ## Specification -/

/-- The measurements of transmitters on the list given to the constructor, in their order. -/
def registered (txs : List Tx) (input : List Msr) : List Msr :=
  input.filter (fun m => txs.any (fun t => t.id == m.id))

/-- `t` is the last transmitter on the list with this id. -/
def LastWith (txs : List Tx) (id : String) (t : Tx) : Prop :=
  ∃ before after, txs = before ++ t :: after ∧ t.id = id ∧ ∀ u ∈ after, u.id ≠ id

/-- `t` is the transmitter whose measurement, of strength `rssi`, is the strongest (the first among equal ones) of
those on the list; `ts` is the time of the last measurement of a transmitter on the list. -/
def NearestIs (txs : List Tx) (input : List Msr) (t : Tx) (rssi : ℝ) (ts : Int) : Prop :=
  ∃ before m after, registered txs input = before ++ m :: after ∧ (∀ k ∈ before, k.rssi < m.rssi) ∧
    (∀ k ∈ after, k.rssi ≤ m.rssi) ∧ m.rssi = rssi ∧ LastWith txs m.id t ∧
    ∃ l, (registered txs input).getLast? = some l ∧ l.ts = ts

/-- The estimator after a history of calls. -/
noncomputable def estRun (txs : List Tx) (calls : List (List Msr)) : NearestTx :=
  calls.foldl (fun e c => (calculatePosition e c).2) (NearestTx.init txs)

/-- The smoother after a history of calls. -/
noncomputable def smRun (smoothing : ℝ) (calls : List SPos) : Smoother :=
  calls.foldl (fun s p => (smoothPosition s p).2) (Smoother.init smoothing)

/-! ## The map of transmitters -/

theorem find_set_fold (txs : List Tx) (id : String) :
    (∀ t, StdMap.find? (txs.foldl (fun m t => StdMap.set m t.id t) []) id = some t → LastWith txs id t) ∧
    ((StdMap.find? (txs.foldl (fun m t => StdMap.set m t.id t) []) id).isSome = txs.any (fun t => t.id == id)) := by
  induction txs using List.reverseRecOn with
  | nil => simp
  | append_singleton txs u ih =>
    rw [List.foldl_append, List.foldl_cons, List.foldl_nil]
    obtain ⟨ih1, ih2⟩ := ih
    rw [StdMap.find?_set]
    by_cases h : u.id = id
    · rw [if_pos h]
      refine ⟨fun t ht => ?_, by simp [h]⟩
      cases ht
      exact ⟨txs, [], by simp, h, by simp⟩
    · rw [if_neg h]
      refine ⟨fun t ht => ?_, by rw [ih2]; simp [h]⟩
      obtain ⟨before, after, h1, h2, h3⟩ := ih1 t ht
      refine ⟨before, after ++ [u], by rw [h1]; simp, h2, ?_⟩
      intro v hv
      rcases List.mem_append.mp hv with hv | hv
      · exact h3 v hv
      · rw [List.mem_singleton] at hv; rw [hv]; exact h

theorem calculatePosition_txs (e : NearestTx) (c : List Msr) : (calculatePosition e c).2.transmitters = e.transmitters := by
  unfold calculatePosition
  split
  · rfl
  · dsimp only
    split <;> rfl

theorem estRun_txs (txs : List Tx) (calls : List (List Msr)) :
    (estRun txs calls).transmitters = txs.foldl (fun m t => StdMap.set m t.id t) [] := by
  induction calls using List.reverseRecOn with
  | nil => rfl
  | append_singleton calls c ih =>
    unfold estRun at ih ⊢
    rw [List.foldl_append, List.foldl_cons, List.foldl_nil, calculatePosition_txs, ih]

theorem getRegistered_eq (txs : List Tx) (e : NearestTx)
    (he : e.transmitters = txs.foldl (fun m t => StdMap.set m t.id t) []) (input : List Msr) :
    getRegistered e input = registered txs input := by
  unfold getRegistered registered
  congr 1
  funext m
  rw [he, (find_set_fold txs m.id).2]

theorem maxRssi_spec (m : Msr) (ms : List Msr) : ∃ before after, m :: ms = before ++ maxRssi m ms :: after ∧
    (∀ k ∈ before, k.rssi < (maxRssi m ms).rssi) ∧ (∀ k ∈ after, k.rssi ≤ (maxRssi m ms).rssi) := by
  induction ms using List.reverseRecOn with
  | nil => exact ⟨[], [], rfl, by simp, by simp⟩
  | append_singleton ms a ih =>
    obtain ⟨before, after, h1, h2, h3⟩ := ih
    have hm : maxRssi m (ms ++ [a]) = if (maxRssi m ms).rssi < a.rssi then a else maxRssi m ms := by
      unfold maxRssi; rw [List.foldl_append]; rfl
    rw [hm]
    by_cases h : (maxRssi m ms).rssi < a.rssi
    · rw [if_pos h]
      refine ⟨m :: ms, [], by simp, ?_, by simp⟩
      intro k hk
      rw [h1] at hk
      rcases List.mem_append.mp hk with hk | hk
      · exact (h2 k hk).trans h
      · rcases List.mem_cons.mp hk with rfl | hk
        · exact h
        · exact lt_of_le_of_lt (h3 k hk) h
    · rw [if_neg h]
      refine ⟨before, after ++ [a], by rw [← List.cons_append, h1]; simp, h2, ?_⟩
      intro k hk
      rcases List.mem_append.mp hk with hk | hk
      · exact h3 k hk
      · rw [List.mem_singleton] at hk; rw [hk]; exact not_lt.mp h

/-! ## C69: the estimator -/

/-- The position of the nearest transmitter before smoothing. -/
noncomputable def rawPosition (t : Tx) (rssi : ℝ) (ts : Int) : SPos :=
  ⟨t.x, t.y, Real.sqrt (Real.exp ((-82 - rssi) / 3)) + 1, false, ts⟩

theorem calculate_cases (txs : List Tx) (e : NearestTx)
    (he : e.transmitters = txs.foldl (fun m t => StdMap.set m t.id t) []) (input : List Msr) :
    (registered txs input = [] → calculatePosition e input = (SPos.default, e)) ∧
    (registered txs input ≠ [] → ∃ t rssi ts, NearestIs txs input t rssi ts ∧
      calculatePosition e input = ((smoothPosition e.smoother (rawPosition t rssi ts)).1,
        { e with smoother := (smoothPosition e.smoother (rawPosition t rssi ts)).2 })) := by
  have hreg := getRegistered_eq txs e he input
  constructor
  · intro h
    unfold calculatePosition
    rw [hreg, h]
  · intro h
    cases hr : registered txs input with
    | nil => exact absurd hr h
    | cons m ms =>
      obtain ⟨before, after, h1, h2, h3⟩ := maxRssi_spec m ms
      have hmem : maxRssi m ms ∈ registered txs input := by rw [hr, h1]; simp
      have hsome : (StdMap.find? e.transmitters (maxRssi m ms).id).isSome := by
        rw [he, (find_set_fold txs _).2]
        exact (List.mem_filter.mp hmem).2
      obtain ⟨t, ht⟩ := Option.isSome_iff_exists.mp hsome
      have hl := (find_set_fold txs (maxRssi m ms).id).1 t (by rw [← he]; exact ht)
      refine ⟨t, (maxRssi m ms).rssi, ((m :: ms).getLast (by simp)).ts,
        ⟨before, maxRssi m ms, after, by rw [hr, h1], h2, h3, rfl, hl, _, by rw [hr]; exact List.getLast?_eq_getLast_of_ne_nil (by simp), rfl⟩, ?_⟩
      unfold calculatePosition
      rw [hreg, hr]
      dsimp only
      rw [ht]
      rfl

theorem nearest_unique {txs : List Tx} {input : List Msr} {t t' : Tx} {r r' : ℝ} {ts ts' : Int}
    (h : NearestIs txs input t r ts) (h' : NearestIs txs input t' r' ts') : t = t' ∧ r = r' ∧ ts = ts' := by
  obtain ⟨b, m, a, h1, h2, h3, h4, ⟨tb, ta, h5, h6, h7⟩, l, h8, h9⟩ := h
  obtain ⟨b', m', a', h1', h2', h3', h4', ⟨tb', ta', h5', h6', h7'⟩, l', h8', h9'⟩ := h'
  have hts : ts = ts' := by
    rw [h8] at h8'; cases h8'; rw [← h9, ← h9']
  have hmm : m = m' := by
    have key := h1.symm.trans h1'
    rw [List.append_eq_append_iff] at key
    rcases key with ⟨c, hc1, hc2⟩ | ⟨c, hc1, hc2⟩
    · cases c with
      | nil => simp at hc2; exact hc2.1
      | cons x c =>
        simp only [List.cons_append, List.cons.injEq] at hc2
        obtain ⟨rfl, hc2⟩ := hc2
        have e1 := h2' m (by rw [hc1]; simp)
        have e2 := h3 m' (by rw [hc2]; simp)
        linarith
    · cases c with
      | nil => simp at hc2; exact hc2.1.symm
      | cons x c =>
        simp only [List.cons_append, List.cons.injEq] at hc2
        obtain ⟨rfl, hc2⟩ := hc2
        have e1 := h2 m' (by rw [hc1]; simp)
        have e2 := h3' m (by rw [hc2]; simp)
        linarith
  subst hmm
  refine ⟨?_, by rw [← h4, ← h4'], hts⟩
  have key := h5.symm.trans h5'
  rw [List.append_eq_append_iff] at key
  rcases key with ⟨c, hc1, hc2⟩ | ⟨c, hc1, hc2⟩
  · cases c with
    | nil => simp at hc2; exact hc2.1
    | cons x c =>
      simp only [List.cons_append, List.cons.injEq] at hc2
      exact absurd h6' (h7 t' (by rw [hc2.2]; simp))
  · cases c with
    | nil => simp at hc2; exact hc2.1.symm
    | cons x c =>
      simp only [List.cons_append, List.cons.injEq] at hc2
      exact absurd h6 (h7' t (by rw [hc2.2]; simp))

/-- **C69.** After any history: if no measurement is of a transmitter on the list the answer is the empty position
and the estimator is left as it was; otherwise the position of the nearest transmitter, with a precision that only
depends on its RSSI and the time of the last measurement of a transmitter on the list, is given to the smoother, and
its answer is returned. -/
theorem C69_nearest (txs : List Tx) (calls : List (List Msr)) (input : List Msr) :
    let e := estRun txs calls
    (registered txs input = [] → calculatePosition e input = (SPos.default, e)) ∧
    (registered txs input ≠ [] → ∃ t rssi ts, NearestIs txs input t rssi ts) ∧
    ∀ t rssi ts, NearestIs txs input t rssi ts →
      let raw : SPos := ⟨t.x, t.y, Real.sqrt (Real.exp ((-82 - rssi) / 3)) + 1, false, ts⟩
      (calculatePosition e input).1 = (smoothPosition e.smoother raw).1 ∧
      (calculatePosition e input).2.smoother = (smoothPosition e.smoother raw).2 := by
  intro e
  obtain ⟨h1, h2⟩ := calculate_cases txs e (estRun_txs txs calls) input
  refine ⟨h1, fun h => ?_, ?_⟩
  · obtain ⟨t, r, ts, h, -⟩ := h2 h; exact ⟨t, r, ts, h⟩
  · intro t rssi ts hn
    have hne : registered txs input ≠ [] := by
      obtain ⟨b, m, a, h, -⟩ := hn; rw [h]; simp
    obtain ⟨t', r', ts', hn', hc⟩ := h2 hne
    obtain ⟨rfl, rfl, rfl⟩ := nearest_unique hn hn'
    rw [hc]
    exact ⟨rfl, rfl⟩

/-- **C69.** The precision is above one metre and strictly worse for a weaker signal. -/
theorem C69_precision (r r' : ℝ) (h : r < r') :
    1 < Real.sqrt (Real.exp ((-82 - r') / 3)) + 1 ∧
    Real.sqrt (Real.exp ((-82 - r') / 3)) + 1 < Real.sqrt (Real.exp ((-82 - r) / 3)) + 1 := by
  constructor
  · have := Real.sqrt_pos.mpr (Real.exp_pos ((-82 - r') / 3)); linarith
  · have : Real.exp ((-82 - r') / 3) < Real.exp ((-82 - r) / 3) := Real.exp_lt_exp.mpr (by linarith)
    have := Real.sqrt_lt_sqrt (Real.exp_pos _).le this
    linarith

/-! ## C69: the smoother -/

/-- The library's position with the members the standalone one has. -/
def embed (p : SPos) : Position := ⟨p.x, p.y, "", p.precision, p.ts, p.isEmpty, .NONE, 0⟩

/-- The library's smoother with the members the standalone one has. -/
def embedState (s : Smoother) : AbState := ⟨s.wasCalled, s.speedX, s.speedY, embed s.position⟩

/-- **C69.** The standalone smoother is the alpha-beta smoother of the library without barriers, speed constraint and
accuracy dependent gain. -/
theorem C69_refines (s : Smoother) (p : SPos) (allowed : ℝ → ℝ → Prop) :
    abSmooth ⟨false, false, false, s.alpha⟩ allowed (embedState s) (embed p) =
      (embed (smoothPosition s p).1, embedState (smoothPosition s p).2) := by
  unfold abSmooth smoothPosition
  by_cases h : p.ts > s.position.ts
  · have h' : (embed p).ts > (embedState s).position.ts := h
    rw [if_pos h, if_pos h']
    dsimp only
    by_cases h2 : s.wasCalled = false ∨ ((p.ts - s.position.ts : Int) : ℝ) / 1000 > 10
    · rw [if_pos h2, if_pos (by
        rcases h2 with h2 | h2
        · exact .inl h2
        · exact .inr (.inl h2))]
      rfl
    · rw [if_neg h2, if_neg (by
        push Not at h2
        rintro (h3 | h3 | h3 | h3)
        · exact h2.1 h3
        · exact absurd h3 (not_lt.mpr h2.2)
        · exact absurd h3.1 (by simp)
        · exact absurd h3.1 (by simp))]
      rfl
  · have h' : ¬ (embed p).ts > (embedState s).position.ts := h
    rw [if_neg h, if_neg h']
    rfl

/-- The gain is in [0.1, 0.9] for any smoothing, and decreases with it. -/
theorem C69_gain (smoothing : ℝ) : 1 / 10 ≤ (Smoother.init smoothing).alpha ∧ (Smoother.init smoothing).alpha ≤ 9 / 10 ∧
    (0 ≤ smoothing → smoothing ≤ 1 → (Smoother.init smoothing).alpha = 9 / 10 - 8 / 10 * smoothing) := by
  unfold Smoother.init
  dsimp only
  have h1 : min 1 (max 0 smoothing) ≤ 1 := min_le_left _ _
  have h2 : 0 ≤ min 1 (max 0 smoothing) := le_min (by norm_num) (le_max_left _ _)
  refine ⟨by linarith, by linarith, fun h h' => ?_⟩
  rw [max_eq_right h, min_eq_right h']
  ring

theorem smoothPosition_kept (s : Smoother) (p : SPos) : (smoothPosition s p).2.position = (smoothPosition s p).1 ∧
    (smoothPosition s p).2.alpha = s.alpha ∧
    (smoothPosition s p).2.wasCalled = (s.wasCalled || decide (s.position.ts < p.ts)) := by
  unfold smoothPosition
  by_cases h : p.ts > s.position.ts
  · rw [if_pos h]
    dsimp only
    split_ifs with h2
    · exact ⟨rfl, rfl, by simp [h]⟩
    · push Not at h2
      refine ⟨rfl, rfl, ?_⟩
      have : s.wasCalled = true := by simpa using h2.1
      simp [this]
  · rw [if_neg h]
    exact ⟨rfl, rfl, by simp [h]⟩

theorem smRun_inv (smoothing : ℝ) (calls : List SPos) :
    (smRun smoothing calls).alpha = (Smoother.init smoothing).alpha ∧
    ((smRun smoothing calls).wasCalled = false → (smRun smoothing calls).position = SPos.default ∧ ∀ p ∈ calls, p.ts ≤ -1) ∧
    ((smRun smoothing calls).wasCalled = true → ∃ p ∈ calls, -1 < p.ts) := by
  induction calls using List.reverseRecOn with
  | nil => exact ⟨rfl, fun _ => ⟨rfl, by simp⟩, fun h => absurd h (by simp [smRun, Smoother.init])⟩
  | append_singleton calls c ih =>
    obtain ⟨i1, i2, i3⟩ := ih
    have e : smRun smoothing (calls ++ [c]) = (smoothPosition (smRun smoothing calls) c).2 := by
      unfold smRun; rw [List.foldl_append]; rfl
    obtain ⟨k1, k2, k3⟩ := smoothPosition_kept (smRun smoothing calls) c
    rw [e, k2, k3]
    refine ⟨i1, fun h => ?_, fun h => ?_⟩
    · rw [Bool.or_eq_false_iff] at h
      obtain ⟨j1, j2⟩ := i2 h.1
      have hc : ¬ c.ts > (smRun smoothing calls).position.ts := by simpa using h.2
      refine ⟨?_, ?_⟩
      · rw [k1]; unfold smoothPosition; rw [if_neg hc]; exact j1
      · intro p hp
        rcases List.mem_append.mp hp with hp | hp
        · exact j2 p hp
        · rw [List.mem_singleton] at hp; subst hp
          rw [j1] at hc
          simpa [SPos.default] using hc
    · by_cases hw : (smRun smoothing calls).wasCalled = true
      · obtain ⟨p, hp, h⟩ := i3 hw
        exact ⟨p, List.mem_append_left _ hp, h⟩
      · have hw' : (smRun smoothing calls).wasCalled = false := by simpa using hw
        rw [hw', Bool.false_or, decide_eq_true_eq, (i2 hw').1] at h
        exact ⟨c, by simp, h⟩

/-- What the smoother answered last (the default position before the first call). -/
noncomputable def lastAnswer (smoothing : ℝ) (calls : List SPos) : SPos :=
  match calls.reverse with
  | [] => SPos.default
  | p :: earlier => (smoothPosition (smRun smoothing earlier.reverse) p).1

theorem lastAnswer_eq (smoothing : ℝ) (calls : List SPos) : (smRun smoothing calls).position = lastAnswer smoothing calls := by
  induction calls using List.reverseRecOn with
  | nil => rfl
  | append_singleton calls c _ =>
    have e : smRun smoothing (calls ++ [c]) = (smoothPosition (smRun smoothing calls) c).2 := by
      unfold smRun; rw [List.foldl_append]; rfl
    rw [e, (smoothPosition_kept _ _).1]
    unfold lastAnswer
    simp

/-- **C69.** The smoother after any history of calls, with `last` its last answer:
* a position that is not newer is ignored and `last` returned again;
* the first position, and one more than 10 s newer, is returned unchanged;
* otherwise time, precision and the empty flag are those of the new position, and the place is the part `alpha` of
  the way from the predicted place to the new one;
* the time of the answer never decreases. -/
theorem C69_smooth (smoothing : ℝ) (calls : List SPos) (p : SPos) :
    let last := lastAnswer smoothing calls
    let s := smRun smoothing calls
    let out := (smoothPosition s p).1
    let t : ℝ := ((p.ts - last.ts : Int) : ℝ) / 1000
    (p.ts ≤ last.ts → out = last) ∧
    (last.ts < p.ts → ((∀ q ∈ calls, q.ts ≤ -1) ∨ 10 < t) → out = p) ∧
    (last.ts < p.ts → (∃ q ∈ calls, -1 < q.ts) → t ≤ 10 →
      out.ts = p.ts ∧ out.precision = p.precision ∧ out.isEmpty = p.isEmpty ∧
      ∃ a, 1 / 10 ≤ a ∧ a ≤ 9 / 10 ∧
        out.x = (1 - a) * (last.x + s.speedX * t) + a * p.x ∧
        out.y = (1 - a) * (last.y + s.speedY * t) + a * p.y) ∧
    out.ts = max last.ts p.ts := by
  intro last s out t
  have hpos : s.position = last := lastAnswer_eq smoothing calls
  obtain ⟨i1, i2, i3⟩ := smRun_inv smoothing calls
  have hout : out = (smoothPosition s p).1 := rfl
  have ht : t = ((p.ts - s.position.ts : Int) : ℝ) / 1000 := by rw [hpos]
  refine ⟨?_, ?_, ?_, ?_⟩
  · intro h
    rw [hout]; unfold smoothPosition
    rw [if_neg (by rw [hpos]; omega)]
    exact hpos
  · intro h h2
    rw [hout]; unfold smoothPosition
    rw [if_pos (by rw [hpos]; exact h)]
    dsimp only
    rw [if_pos ?_]
    rcases h2 with h2 | h2
    · left
      by_contra hc
      obtain ⟨q, hq, hlt⟩ := i3 (by simpa using hc)
      have := h2 q hq
      omega
    · right; rw [← ht]; exact h2
  · rintro h ⟨q, hq, hlt⟩ h10
    have hw : ¬ s.wasCalled = false := by
      intro hw
      have := (i2 hw).2 q hq
      omega
    rw [hout]; unfold smoothPosition
    rw [if_pos (by rw [hpos]; exact h)]
    dsimp only
    rw [if_neg (by
      rintro (h3 | h3)
      · exact hw h3
      · rw [← ht] at h3; linarith)]
    have hg := C69_gain smoothing
    have ha : s.alpha = (Smoother.init smoothing).alpha := i1
    refine ⟨rfl, rfl, rfl, s.alpha, by rw [ha]; exact hg.1, by rw [ha]; exact hg.2.1, ?_, ?_⟩
    · dsimp only; rw [← ht, hpos]; ring
    · dsimp only; rw [← ht, hpos]; ring
  · rw [hout]; unfold smoothPosition
    by_cases h : p.ts > s.position.ts
    · rw [if_pos h]
      rw [hpos] at h
      dsimp only
      split_ifs <;> (dsimp only; omega)
    · rw [if_neg h]
      rw [hpos] at h ⊢
      dsimp only
      omega

/-! ## C69: convergence -/

/-- The estimator after the first `n` inputs. -/
noncomputable def estIterate (e : NearestTx) (inputs : ℕ → List Msr) : ℕ → NearestTx
  | 0 => e
  | n + 1 => (calculatePosition (estIterate e inputs n) (inputs n)).2

theorem conv_sq (C q : ℝ) (hq0 : 0 ≤ q) (hq1 : q < 1) (f : ℕ → ℝ) (c : ℝ) (hf : ∀ n, (f n - c) ^ 2 ≤ C * q ^ (n + 1)) :
    Filter.Tendsto f Filter.atTop (nhds c) := by
  have hlim : Filter.Tendsto (fun n : ℕ => C * q ^ (n + 1)) Filter.atTop (nhds 0) := by
    have := (tendsto_pow_atTop_nhds_zero_of_lt_one hq0 hq1).const_mul C
    rw [mul_zero] at this
    exact (Filter.tendsto_add_atTop_iff_nat 1).mpr this
  have hsq : Filter.Tendsto (fun n => (f n - c) ^ 2) Filter.atTop (nhds 0) :=
    squeeze_zero (fun n => sq_nonneg _) hf hlim
  have habs : Filter.Tendsto (fun n => |f n - c|) Filter.atTop (nhds 0) := by
    have := (Real.continuous_sqrt.tendsto 0).comp hsq
    rw [Real.sqrt_zero] at this
    refine this.congr (fun n => ?_)
    simp [Real.sqrt_sq_eq_abs]
  exact tendsto_sub_nhds_zero_iff.mp ((tendsto_zero_iff_abs_tendsto_zero _).mpr habs)

theorem est_alpha (txs : List Tx) (calls : List (List Msr)) : (estRun txs calls).smoother.alpha = (Smoother.init (9 / 10)).alpha := by
  induction calls using List.reverseRecOn with
  | nil => rfl
  | append_singleton calls c ih =>
    have e : estRun txs (calls ++ [c]) = (calculatePosition (estRun txs calls) c).2 := by
      unfold estRun; rw [List.foldl_append]; rfl
    obtain ⟨h1, h2⟩ := calculate_cases txs (estRun txs calls) (estRun_txs txs calls) c
    rw [e]
    by_cases h : registered txs c = []
    · rw [h1 h]; exact ih
    · obtain ⟨t, r, ts, -, hc⟩ := h2 h
      rw [hc]
      dsimp only
      rw [(smoothPosition_kept _ _).2.1]; exact ih

/-- **C69.** After any history, if from then on the same transmitter `t` is the nearest one and its measurements come
with a constant period, the answers converge to the place of `t`. -/
theorem C69_converges (txs : List Tx) (calls : List (List Msr)) (t : Tx) (T : Int) (hT : 0 < T)
    (inputs : ℕ → List Msr)
    (h : ∀ n : ℕ, ∃ rssi, NearestIs txs (inputs n) t rssi ((estRun txs calls).smoother.position.ts + T * (n + 1))) :
    let out := fun n => (calculatePosition (estIterate (estRun txs calls) inputs n) (inputs n)).1
    Filter.Tendsto (fun n => (out n).x) Filter.atTop (nhds t.x) ∧
    Filter.Tendsto (fun n => (out n).y) Filter.atTop (nhds t.y) := by
  intro out
  set e := estRun txs calls with he
  choose rssi hr using h
  set raw : ℕ → SPos := fun n => rawPosition t (rssi n) (e.smoother.position.ts + T * (n + 1)) with hraw
  -- the iteration of the estimator is that of its smoother
  have htx : ∀ n, (estIterate e inputs n).transmitters = txs.foldl (fun m t => StdMap.set m t.id t) [] := by
    intro n
    induction n with
    | zero => exact estRun_txs txs calls
    | succ n ih => exact (calculatePosition_txs _ _).trans ih
  have hstep : ∀ n, calculatePosition (estIterate e inputs n) (inputs n) =
      ((smoothPosition (estIterate e inputs n).smoother (raw n)).1,
        { estIterate e inputs n with smoother := (smoothPosition (estIterate e inputs n).smoother (raw n)).2 }) := by
    intro n
    have hne : registered txs (inputs n) ≠ [] := by
      obtain ⟨b, m, a, h, -⟩ := hr n; rw [h]; simp
    obtain ⟨t', r', ts', hn', hc⟩ := (calculate_cases txs _ (htx n) (inputs n)).2 hne
    obtain ⟨rfl, rfl, rfl⟩ := nearest_unique (hr n) hn'
    exact hc
  have hal : ∀ n, (estIterate e inputs n).smoother.alpha = e.smoother.alpha := by
    intro n
    induction n with
    | zero => rfl
    | succ n ih =>
      show (calculatePosition (estIterate e inputs n) (inputs n)).2.smoother.alpha = _
      rw [hstep n]
      exact (smoothPosition_kept _ _).2.1.trans ih
  set P : AbParams := ⟨false, false, false, e.smoother.alpha⟩ with hP
  have hiter : ∀ n, abIterate P (fun _ _ _ => True) (embedState e.smoother) (fun n => embed (raw n)) n =
      embedState (estIterate e inputs n).smoother := by
    intro n
    induction n with
    | zero => rfl
    | succ n ih =>
      show (abSmooth P _ (abIterate P (fun _ _ _ => True) (embedState e.smoother) (fun n => embed (raw n)) n) (embed (raw n))).2 =
        embedState (calculatePosition (estIterate e inputs n) (inputs n)).2.smoother
      rw [ih, hstep n]
      have := C69_refines (estIterate e inputs n).smoother (raw n) (fun _ _ => True)
      rw [hal n] at this
      rw [hP, this]
  have hg := C69_gain (9 / 10)
  have ha : e.smoother.alpha = (Smoother.init (9 / 10)).alpha := est_alpha txs calls
  obtain ⟨C, hC⟩ := C42_rate P rfl (by rw [hP]; dsimp only; rw [ha]; exact hg.1) (by rw [hP]; dsimp only; rw [ha]; exact hg.2.1)
    (fun _ _ _ => True) (embedState e.smoother) T hT t.x t.y (fun n => embed (raw n))
    ⟨fun _ => rfl, fun _ => rfl, fun _ => rfl⟩
  have hout : ∀ n, out n = (estIterate e inputs (n + 1)).smoother.position := by
    intro n
    show (calculatePosition (estIterate e inputs n) (inputs n)).1 =
      (calculatePosition (estIterate e inputs n) (inputs n)).2.smoother.position
    rw [hstep n]
    exact (smoothPosition_kept _ _).1.symm
  have hq0 : 0 ≤ 1 - P.alpha := by rw [hP]; dsimp only; rw [ha]; linarith [hg.2.1]
  have hq1 : 1 - P.alpha < 1 := by rw [hP]; dsimp only; rw [ha]; linarith [hg.1]
  constructor
  · refine conv_sq C (1 - P.alpha) hq0 hq1 _ _ (fun n => ?_)
    have := (hC (n + 1)).1
    rw [hiter] at this
    rw [hout n]; exact this
  · refine conv_sq C (1 - P.alpha) hq0 hq1 _ _ (fun n => ?_)
    have := (hC (n + 1)).2
    rw [hiter] at this
    rw [hout n]; exact this

/-! ## A concrete case -/

/-- One transmitter registered twice, and another one. -/
noncomputable def exTxs : List Tx := [⟨"a", 9, 9⟩, ⟨"b", 1, 2⟩, ⟨"a", 3, 4⟩]

/-- A measurement. -/
noncomputable def exMsr (id : String) (rssi : ℝ) (ts : Int) : Msr := ⟨.BEACON, ts, id, rssi, 0, 0, 0, 0⟩

/-- Measurements of the two, and of a stronger unknown one: `a` is the nearest, and its last registration counts. -/
theorem ex_nearest (ts : Int) : NearestIs exTxs
    [exMsr "b" (-70) (ts - 3), exMsr "a" (-60) (ts - 2), exMsr "b" (-80) ts, exMsr "z" (-30) (ts + 5)] ⟨"a", 3, 4⟩ (-60) ts := by
  refine ⟨[exMsr "b" (-70) (ts - 3)], exMsr "a" (-60) (ts - 2), [exMsr "b" (-80) ts], ?_, ?_, ?_, rfl, ?_, exMsr "b" (-80) ts, ?_, rfl⟩
  · simp [registered, exTxs, exMsr]
  · simp [exMsr]; norm_num
  · simp [exMsr]; norm_num
  · exact ⟨[⟨"a", 9, 9⟩, ⟨"b", 1, 2⟩], [], rfl, rfl, by simp⟩
  · simp [registered, exTxs, exMsr]

/-- The hypotheses of `C69_converges` can be met after any history. -/
example (calls : List (List Msr)) : ∃ inputs : ℕ → List Msr, ∀ n : ℕ, ∃ rssi, NearestIs exTxs (inputs n) ⟨"a", 3, 4⟩ rssi
    ((estRun exTxs calls).smoother.position.ts + 500 * (n + 1)) :=
  ⟨fun n => [exMsr "b" (-70) ((estRun exTxs calls).smoother.position.ts + 500 * (n + 1) - 3),
    exMsr "a" (-60) ((estRun exTxs calls).smoother.position.ts + 500 * (n + 1) - 2),
    exMsr "b" (-80) ((estRun exTxs calls).smoother.position.ts + 500 * (n + 1)),
    exMsr "z" (-30) ((estRun exTxs calls).smoother.position.ts + 500 * (n + 1) + 5)], fun _ => ⟨_, ex_nearest _⟩⟩

/-- The first answer is the place of the nearest transmitter itself. -/
theorem C69_first (txs : List Tx) (input : List Msr) (t : Tx) (rssi : ℝ) (ts : Int) (hts : -1 < ts)
    (h : NearestIs txs input t rssi ts) :
    (calculatePosition (NearestTx.init txs) input).1 =
      ⟨t.x, t.y, Real.sqrt (Real.exp ((-82 - rssi) / 3)) + 1, false, ts⟩ := by
  refine ((C69_nearest txs [] input).2.2 t rssi ts h).1.trans ?_
  exact (C69_smooth (9 / 10) [] _).2.1 hts (.inl (by simp))

end Verif.Standalone
