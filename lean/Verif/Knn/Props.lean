import Verif.Knn.Lemmas

/-!
# C29, C30, C31, C74: KNN weights and positions
-/

namespace Verif.Knn

open Verif.Levels
open Verif.Geo (XYPoint)

/-- **C29.** Exactly the reference points with at least three matching measurements get a weight; it
is strictly positive and equals the documented formula. -/
theorem C29_weights (fps : List Fingerprint) (msr : List RadioData) (d : Bool) (rp : String) :
    ((StdMap.find? (calcRpWeightsKnn fps msr d) rp).isSome ↔ 3 ≤ (matched fps msr rp).length) ∧
    ∀ w, StdMap.find? (calcRpWeightsKnn fps msr d) rp = some w → 0 < w ∧
      w = if d then diffWeight msr (matched fps msr rp) else absWeight msr (matched fps msr rp) := by
  rw [rpWeights_find]
  by_cases h : (matched fps msr rp).length < 3
  · rw [if_pos h]
    refine ⟨?_, by simp⟩
    simp; omega
  · rw [if_neg h]
    refine ⟨by simp; omega, ?_⟩
    intro w hw
    simp only [Option.some.injEq] at hw
    refine ⟨?_, hw.symm⟩
    rw [← hw]
    obtain ⟨h1, h2⟩ := weights_pos msr (matched fps msr rp) (by omega)
    split_ifs
    · exact h1
    · exact h2

theorem calcRpWeightsKnn_sorted (fps : List Fingerprint) (msr : List RadioData) (d : Bool) :
    StdMap.Sorted (calcRpWeightsKnn fps msr d) := by
  have h2 := (rpStatistics_find fps msr "").2
  unfold calcRpWeightsKnn StdMap.Sorted at *
  rw [List.pairwise_filterMap]
  refine h2.imp ?_
  intro a b hab p hp q hq
  split_ifs at hp hq
  simp only [Option.some.injEq] at hp hq
  rw [← hp, ← hq]; exact hab

/-- A common offset added to every measured rssi (a device bias). -/
noncomputable def shift (c : ℝ) (m : RadioData) : RadioData := { m with rssi := m.rssi + c }

theorem trustSpec_shift (c : ℝ) (m : RadioData) : trustSpec (shift c m) = (10 : ℝ) ^ ((3 / 50 : ℝ) * c) * trustSpec m := by
  unfold trustSpec shift
  simp only
  rw [← Real.rpow_add (by norm_num)]
  congr 1; ring

theorem share_shift (c : ℝ) (msr : List RadioData) (id : String) : share (msr.map (shift c)) id = share msr id := by
  unfold share
  rw [← List.map_reverse, List.find?_map]
  have hcomp : ((fun m : RadioData => m.id == id) ∘ shift c) = fun m => m.id == id := by funext m; rfl
  rw [hcomp]
  have hk : (0 : ℝ) < (10 : ℝ) ^ ((3 / 50 : ℝ) * c) := Real.rpow_pos_of_pos (by norm_num) _
  have hsum : ((msr.map (shift c)).map trustSpec).sum = (10 : ℝ) ^ ((3 / 50 : ℝ) * c) * (msr.map trustSpec).sum := by
    rw [List.map_map, ← List.sum_map_mul_left]
    congr 1
    apply List.map_congr_left
    intro m _
    exact trustSpec_shift c m
  cases msr.reverse.find? (fun m => m.id == id) with
  | none => rfl
  | some m =>
    simp only [Option.map_some]
    rw [hsum, trustSpec_shift, mul_div_mul_left _ _ hk.ne']

/-- **C74.** In difference mode the weights do not change when every measured rssi is shifted by the
same amount: a device specific offset has no influence. -/
theorem C74_bias_invariance (fps : List Fingerprint) (msr : List RadioData) (c : ℝ) (rp : String) :
    StdMap.find? (calcRpWeightsKnn fps (msr.map (shift c)) true) rp =
      StdMap.find? (calcRpWeightsKnn fps msr true) rp := by
  rw [rpWeights_find, rpWeights_find]
  have hm : matched fps (msr.map (shift c)) rp = (matched fps msr rp).map (fun x => ⟨shift c x.m, x.f⟩) := by
    unfold matched
    rw [List.flatMap_map, List.map_flatMap]
    congr 1
    funext m
    rw [List.map_map]
    rfl
  rw [hm, List.length_map]
  by_cases h : (matched fps msr rp).length < 3
  · rw [if_pos h, if_pos h]
  · rw [if_neg h, if_neg h, if_pos rfl, if_pos rfl]
    congr 1
    unfold diffWeight
    simp only [laterEarlier_map, List.map_map, List.length_map, Function.comp_def]
    have hid : ∀ x : RadioData, (shift c x).id = x.id := fun x => rfl
    have hr : ∀ x y : RadioData, (shift c x).rssi - (shift c y).rssi = x.rssi - y.rssi := by
      intro x y; simp [shift]
    simp only [hid, hr, share_shift]

/-- **C74.** The absolute mode lacks this: there is a radiomap and a measurement whose weight changes. -/
theorem C74_abs_mode_biased : ∃ (fps : List Fingerprint) (msr : List RadioData) (c : ℝ) (rp : String),
    StdMap.find? (calcRpWeightsKnn fps (msr.map (shift c)) false) rp ≠
      StdMap.find? (calcRpWeightsKnn fps msr false) rp := by
  let st : SignalStatistics := ⟨.BEACON, 70, 0, 1⟩
  let fps : List Fingerprint := [⟨"a", "r", st⟩, ⟨"b", "r", st⟩, ⟨"c", "r", st⟩]
  let msr : List RadioData := [⟨.BEACON, "a", -70, 0, 0, 0⟩, ⟨.BEACON, "b", -70, 0, 0, 0⟩, ⟨.BEACON, "c", -70, 0, 0, 0⟩]
  refine ⟨fps, msr, 1, "r", ?_⟩
  rw [rpWeights_find, rpWeights_find]
  have hm : ∀ x : ℝ, matched fps (msr.map (shift x)) "r" =
      [⟨shift x ⟨.BEACON, "a", -70, 0, 0, 0⟩, ⟨"a", "r", st⟩⟩, ⟨shift x ⟨.BEACON, "b", -70, 0, 0, 0⟩, ⟨"b", "r", st⟩⟩,
       ⟨shift x ⟨.BEACON, "c", -70, 0, 0, 0⟩, ⟨"c", "r", st⟩⟩] := by
    intro x; simp [matched, fps, msr, shift]
  have hm0 : matched fps msr "r" =
      [⟨⟨.BEACON, "a", -70, 0, 0, 0⟩, ⟨"a", "r", st⟩⟩, ⟨⟨.BEACON, "b", -70, 0, 0, 0⟩, ⟨"b", "r", st⟩⟩,
       ⟨⟨.BEACON, "c", -70, 0, 0, 0⟩, ⟨"c", "r", st⟩⟩] := by
    simp [matched, fps, msr]
  rw [hm, hm0]
  have hT : ∀ i, trustSpec ⟨.BEACON, i, -70, 0, 0, 0⟩ = (10 : ℝ) ^ (-(3 / 50 : ℝ) * (-10 - -70)) := by
    intro i; unfold trustSpec; norm_num
  have hpos : (0 : ℝ) < (10 : ℝ) ^ (-(3 / 50 : ℝ) * (-10 - -70)) := Real.rpow_pos_of_pos (by norm_num) _
  have hs : ∀ i ∈ ["a", "b", "c"], share msr i = 1 / 3 := by
    intro i hi
    simp only [List.mem_cons, List.not_mem_nil, or_false] at hi
    rcases hi with rfl | rfl | rfl <;> simp [share, msr, hT] <;> field_simp <;> norm_num
  have ha := hs "a" (by simp)
  have hb := hs "b" (by simp)
  have hc := hs "c" (by simp)
  simp only [absWeight, share_shift, List.map_cons, List.map_nil, List.length_cons, List.length_nil, shift, ha, hb, hc, st]
  simp only [List.sum_cons, List.sum_nil, combine]
  norm_num
  intro h
  have h1 := congrArg (fun x => x * x) h
  rw [div_mul_div_comm, div_mul_div_comm, Real.mul_self_sqrt (by norm_num), Real.mul_self_sqrt (by norm_num)] at h1
  norm_num at h1

/-! ## C30 -/

theorem maxElement_spec (w : List (String × ℝ)) (ts : List RpTriangle) (t : RpTriangle)
    (h : maxElement w ts = some t) :
    ∃ before after, ts = before ++ t :: after ∧ (∀ u ∈ before, triangleWeight w u < triangleWeight w t) ∧
      ∀ u ∈ after, triangleWeight w u ≤ triangleWeight w t := by
  cases ts with
  | nil => simp [maxElement] at h
  | cons a l =>
    simp only [maxElement, Option.some.injEq] at h
    subst h
    induction l using List.reverseRecOn with
    | nil => exact ⟨[], [], rfl, by simp, by simp⟩
    | append_singleton l x ih =>
      rw [List.foldl_append]
      simp only [List.foldl_cons, List.foldl_nil]
      obtain ⟨bef, aft, h1, h2, h3⟩ := ih
      set b := l.foldl (fun best u => if triangleWeight w best < triangleWeight w u then u else best) a
      split_ifs with hlt
      · refine ⟨a :: l, [], by simp, ?_, by simp⟩
        intro u hu
        rw [h1] at hu
        rcases List.mem_append.mp hu with hu | hu
        · exact (h2 u hu).trans hlt
        · rcases List.mem_cons.mp hu with rfl | hu
          · exact hlt
          · exact lt_of_le_of_lt (h3 u hu) hlt
      · refine ⟨bef, aft ++ [x], ?_, h2, ?_⟩
        · rw [← List.cons_append, h1]; simp
        · intro u hu
          rcases List.mem_append.mp hu with hu | hu
          · exact h3 u hu
          · rw [List.mem_singleton] at hu; subst hu; exact not_lt.mp hlt

/-- `p` lies in the triangle `a b c`. -/
def InTriangle (p a b c : XYPoint) : Prop :=
  ∃ s t u : ℝ, 0 ≤ s ∧ 0 ≤ t ∧ 0 ≤ u ∧ s + t + u = 1 ∧
    p.x = s * a.x + t * b.x + u * c.x ∧ p.y = s * a.y + t * b.y + u * c.y

theorem epsilon_eq : doubleEpsilon = 1 / 2 ^ 52 := by unfold doubleEpsilon; norm_num

/-- **C30.** For a non empty triangle list and non negative weights the result is: the weighted mean
of the corners of the first triangle of maximal total weight, which lies inside that triangle, if all
corners are known and the total weight is not below 2⁻⁵²; the origin otherwise. -/
theorem C30_in_triangle (ts : List RpTriangle) (hts : ts ≠ []) (rps : List (ReferencePoint XYPoint))
    (w : List (String × ℝ)) (hw : ∀ p ∈ w, 0 ≤ p.2) :
    ∃ t before after p, ts = before ++ t :: after ∧ (∀ u ∈ before, triangleWeight w u < triangleWeight w t) ∧
      (∀ u ∈ after, triangleWeight w u ≤ triangleWeight w t) ∧
      calcPositionInTriangle ts (mkRadiomap rps) w = .ok p ∧
      ((p = ⟨0, 0⟩ ∧ (triangleWeight w t < 1 / 2 ^ 52 ∨
          ∃ id ∈ [t.rp1, t.rp2, t.rp3], ∀ rp ∈ rps, rp.id ≠ id)) ∨
       ∃ a ∈ rps, ∃ b ∈ rps, ∃ c ∈ rps, 1 / 2 ^ 52 ≤ triangleWeight w t ∧ a.id = t.rp1 ∧ b.id = t.rp2 ∧ c.id = t.rp3 ∧
         triangleWeight w t * p.x = weightOf w t.rp1 * a.point.x + weightOf w t.rp2 * b.point.x + weightOf w t.rp3 * c.point.x ∧
         triangleWeight w t * p.y = weightOf w t.rp1 * a.point.y + weightOf w t.rp2 * b.point.y + weightOf w t.rp3 * c.point.y ∧
         InTriangle p a.point b.point c.point) := by
  rw [← epsilon_eq]
  obtain ⟨t, ht⟩ : ∃ t, maxElement w ts = some t := by
    cases ts with
    | nil => exact absurd rfl hts
    | cons a l => exact ⟨_, rfl⟩
  obtain ⟨bef, aft, h1, h2, h3⟩ := maxElement_spec w ts t ht
  have hwt : ∀ id, 0 ≤ weightOf w id := by
    intro id
    unfold weightOf
    cases hf : StdMap.find? w id with
    | none => simp
    | some v => exact hw _ (StdMap.mem_of_find? hf)
  have hcase : ∀ id, (∃ rp ∈ rps, rp.id = id ∧ (mkRadiomap rps).hasReferencePoint id = true ∧
        (mkRadiomap rps).getReferencePoint id = some rp) ∨
      ((∀ rp ∈ rps, rp.id ≠ id) ∧ (mkRadiomap rps).hasReferencePoint id = false) := by
    intro id
    obtain ⟨-, hhas, hget⟩ := C15_radiomap rps id
    cases hf : rps.find? (fun rp => rp.id == id) with
    | none =>
      right
      rw [List.find?_eq_none] at hf
      have hno : ∀ rp ∈ rps, rp.id ≠ id := by intro rp hrp h; exact hf rp hrp (by simpa using h)
      refine ⟨hno, ?_⟩
      rw [← Bool.not_eq_true, hhas]
      rintro ⟨rp, hrp, h⟩
      exact hno rp hrp h
    | some rp =>
      left
      have hid : rp.id = id := by simpa using List.find?_some (p := fun rp : ReferencePoint XYPoint => rp.id == id) hf
      have hmem := List.mem_of_find?_eq_some hf
      exact ⟨rp, hmem, hid, hhas.mpr ⟨rp, hmem, hid⟩, by rw [hget, hf]⟩
  by_cases hn : triangleWeight w t < doubleEpsilon
  · refine ⟨t, bef, aft, ⟨0, 0⟩, h1, h2, h3, ?_, .inl ⟨rfl, .inl hn⟩⟩
    unfold calcPositionInTriangle
    rw [ht]
    simp only
    rw [if_pos (by exact hn)]
  · rcases hcase t.rp1 with ⟨a, ha, ia, hasa, geta⟩ | ⟨hno, hasa⟩
    · rcases hcase t.rp2 with ⟨b, hb, ib, hasb, getb⟩ | ⟨hno, hasb⟩
      · rcases hcase t.rp3 with ⟨c, hc, ic, hasc, getc⟩ | ⟨hno, hasc⟩
        · have heps : 0 < doubleEpsilon := by unfold doubleEpsilon; norm_num
          have hpos : 0 < triangleWeight w t := lt_of_lt_of_le heps (not_lt.mp hn)
          refine ⟨t, bef, aft, ⟨(weightOf w t.rp1 * a.point.x + weightOf w t.rp2 * b.point.x + weightOf w t.rp3 * c.point.x) / triangleWeight w t,
            (weightOf w t.rp1 * a.point.y + weightOf w t.rp2 * b.point.y + weightOf w t.rp3 * c.point.y) / triangleWeight w t⟩, h1, h2, h3, ?_, .inr ?_⟩
          · unfold calcPositionInTriangle
            rw [ht]
            simp only
            rw [if_neg (by exact hn)]
            simp only [hasa, hasb, hasc, geta, getb, getc, Bool.not_true, Bool.or_self, Bool.false_eq_true, if_false]
            have hpos' : 0 < weightOf w t.rp1 + weightOf w t.rp2 + weightOf w t.rp3 := hpos
            rw [divide_pos hpos', divide_pos hpos']
            rfl
          · refine ⟨a, ha, b, hb, c, hc, not_lt.mp hn, ia, ib, ic, by field_simp, by field_simp, ?_⟩
            refine ⟨weightOf w t.rp1 / triangleWeight w t, weightOf w t.rp2 / triangleWeight w t, weightOf w t.rp3 / triangleWeight w t,
              div_nonneg (hwt _) hpos.le, div_nonneg (hwt _) hpos.le, div_nonneg (hwt _) hpos.le, ?_, ?_, ?_⟩
            · rw [← add_div, ← add_div]; exact div_self hpos.ne'
            · simp only; ring
            · simp only; ring
        · refine ⟨t, bef, aft, ⟨0, 0⟩, h1, h2, h3, ?_, .inl ⟨rfl, .inr ⟨_, by simp, hno⟩⟩⟩
          unfold calcPositionInTriangle
          rw [ht]
          simp only
          rw [if_neg (by exact hn)]
          simp [hasc]
      · refine ⟨t, bef, aft, ⟨0, 0⟩, h1, h2, h3, ?_, .inl ⟨rfl, .inr ⟨_, by simp, hno⟩⟩⟩
        unfold calcPositionInTriangle
        rw [ht]
        simp only
        rw [if_neg (by exact hn)]
        simp [hasb]
    · refine ⟨t, bef, aft, ⟨0, 0⟩, h1, h2, h3, ?_, .inl ⟨rfl, .inr ⟨_, by simp, hno⟩⟩⟩
      unfold calcPositionInTriangle
      rw [ht]
      simp only
      rw [if_neg (by exact hn)]
      simp [hasa]

/-- **C30.** An empty list of triangles is undefined behaviour. -/
theorem C30_no_triangle (rm : Radiomap) (w : List (String × ℝ)) : calcPositionInTriangle [] rm w = .undefined := rfl

/-! ## C31 -/

/-- What `calcKHeaviestRefPointsAverage` is meant to compute: the weighted mean of the first `k`
points in descending order of weight. -/
noncomputable def intendedKHeaviest (sort : List (String × ℝ) → List (String × ℝ)) (rm : Radiomap)
    (w : List (String × ℝ)) (k : ℕ) : Option XYPoint := weightedMean rm ((sort w).take (min k w.length))

/-- **C31 (finding).** The function returns the origin for every radiomap, every weights and every `k`. -/
theorem C31_always_origin (sort : List (String × ℝ) → List (String × ℝ)) (rm : Radiomap) (w : List (String × ℝ)) (k : ℕ) :
    calcKHeaviest sort rm w k = some ⟨0, 0⟩ := by
  unfold calcKHeaviest partialSortCopy weightedMean doubleEpsilon
  simp

/-- **C31 (finding).** So it differs from the intended result, here for one reference point. -/
theorem C31_not_intended : ∃ (rm : Radiomap) (w : List (String × ℝ)) (k : ℕ),
    ∀ sort, SortsBy (fun a b : String × ℝ => a.2 > b.2) sort →
      calcKHeaviest sort rm w k ≠ intendedKHeaviest sort rm w k := by
  refine ⟨mkRadiomap [⟨"r", ⟨3, 4⟩, []⟩], [("r", 1)], 1, ?_⟩
  intro sort hs
  have h1 : sort [("r", 1)] = [("r", 1)] := List.perm_singleton.mp (hs.perm _)
  rw [C31_always_origin]
  unfold intendedKHeaviest
  rw [h1]
  have : doubleEpsilon ≤ 1 := by unfold doubleEpsilon; norm_num
  simp [weightedMean, mkRadiomap, buildIndex, StdMap.insert, StdMap.find?, StdMap.insertSorted,
    Radiomap.getReferencePoint, not_lt.mpr this, divide_pos (zero_lt_one' ℝ)]

end Verif.Knn
