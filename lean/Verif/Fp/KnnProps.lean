import Verif.Fp.KnnLemmas

/-!
# C158: the position by fingerprints in floating point
-/

namespace Verif.Fp

open Verif Verif.Knn Verif.Levels
open Verif.Geo (XYPoint)

variable (R : Rounding)

/-- Signals and fingerprints of a size and in a number that occur. -/
structure SaneRadio (fps : List Fingerprint) (msr : List RadioData) : Prop where
  mean : ∀ f ∈ fps, |f.stat.mean| ≤ 200
  rssi : ∀ m ∈ msr, |m.rssi| ≤ 200
  power : ∀ m ∈ msr, |m.power| ≤ 200
  signals : msr.length ≤ 10 ^ 6
  matches_ : ∀ rp, (matched fps msr rp).length ≤ 10 ^ 4

/-- The library function `pow` is accurate to nine digits. -/
def Accurate (trustF : RadioData → ℝ) (msr : List RadioData) : Prop :=
  ∀ m ∈ msr, |trustF m - trustSpec m| ≤ 1 / 10 ^ 9 * trustSpec m

/-- The sum of the shares by which the penalties of a reference point are divided. -/
noncomputable def shareSum (msr : List RadioData) (d : Bool) (M : List Match) : ℝ :=
  if d then ((laterEarlier M).map (fun p => share msr p.1.m.id * share msr p.2.m.id)).sum else (M.map (fun p => share msr p.m.id)).sum

/-- No reference point has a sum of shares near the threshold of 10⁻⁸, where the code divides or does not. -/
def Clear (fps : List Fingerprint) (msr : List RadioData) (d : Bool) : Prop :=
  ∀ rp, 3 ≤ (matched fps msr rp).length →
    shareSum msr d (matched fps msr rp) ≤ 9 / 10 ^ 9 ∨ 11 / 10 ^ 9 ≤ shareSum msr d (matched fps msr rp)

theorem trust_range {m : RadioData} (h1 : |m.rssi| ≤ 200) (h2 : |m.power| ≤ 200) : 1 / 10 ^ 24 ≤ trustSpec m ∧ trustSpec m ≤ 10 ^ 24 := by
  obtain ⟨a1, a2⟩ := abs_le.mp h1
  obtain ⟨b1, b2⟩ := abs_le.mp h2
  unfold trustSpec
  set P := (if m.power < 1 / 100000 then (-10 : ℝ) else m.power) with hP
  have hP1 : -200 ≤ P ∧ P ≤ 200 := by
    rw [hP]
    split_ifs
    · constructor <;> norm_num
    · exact ⟨b1, b2⟩
  constructor
  · have : (10 : ℝ) ^ (-(24 : ℝ)) ≤ (10 : ℝ) ^ (-(3 / 50 : ℝ) * (P - m.rssi)) :=
      Real.rpow_le_rpow_of_exponent_le (by norm_num) (by linarith)
    refine le_trans (le_of_eq ?_) this
    rw [Real.rpow_neg (by norm_num), one_div]
    norm_num
  · have : (10 : ℝ) ^ (-(3 / 50 : ℝ) * (P - m.rssi)) ≤ (10 : ℝ) ^ (24 : ℝ) :=
      Real.rpow_le_rpow_of_exponent_le (by norm_num) (by linarith)
    refine this.trans (le_of_eq ?_)
    norm_num

theorem accurate_within {x y : ℝ} (hy : 0 < y) (h : |x - y| ≤ 1 / 10 ^ 9 * y) : Within (10 ^ 7) x y := by
  obtain ⟨h1, h2⟩ := abs_le.mp h
  have hg : 1 + 2.1 / 10 ^ 9 ≤ grow ^ (10 ^ 7) := by
    have h0 := one_add_mul_le_pow (show (-2 : ℝ) ≤ 2 * u by linarith [u_pos]) (10 ^ 7)
    have hu := u_least
    have : grow ^ (10 ^ 7) = (1 + 2 * u) ^ (10 ^ 7) := by unfold grow; rfl
    rw [this]
    refine le_trans ?_ h0
    push_cast
    linarith
  refine ⟨by linarith, hy.le, ?_, ?_⟩ <;> generalize grow ^ (10 ^ 7) = G at *
  · have := mul_le_mul_of_nonneg_left hg hy.le
    linarith
  · have hx : 0 ≤ x := by linarith
    have := mul_le_mul_of_nonneg_left hg hx
    linarith

theorem acc_bounds (fps : List Fingerprint) (msr : List RadioData) (hs : SaneRadio fps msr) (d : Bool) (rp : String)
    (h3 : 3 ≤ (matched fps msr rp).length) (hsh : ∀ id, share msr id ≤ 1) :
    let acc := accOuter (calcTransmittersWeights msr) d [] ((matched fps msr rp).map Match.toStat) (0, 0)
    1 / 1000000 ≤ acc.1 ∧ acc.1 ≤ 10 ^ 20 ∧ acc.2 = shareSum msr d (matched fps msr rp) ∧ acc.2 ≤ 10 ^ 20 := by
  intro acc
  have hM := hs.matches_ rp
  have hb : ∀ x ∈ matched fps msr rp, |x.f.stat.mean| ≤ 200 ∧ |x.m.rssi| ≤ 200 := fun x hx =>
    ⟨hs.mean _ (mem_matched hx).2.1, hs.rssi _ (mem_matched hx).1⟩
  have hsh0 : ∀ x ∈ matched fps msr rp, 0 ≤ share msr x.m.id := fun x hx => (share_pos msr _ ⟨x.m, (mem_matched hx).1, rfl⟩).le
  have hlen : ((laterEarlier (matched fps msr rp)).length : ℝ) ≤ 10 ^ 10 := by
    have h1 := (laterEarlier_length (matched fps msr rp)).trans (Nat.mul_le_mul hM hM)
    have h2 : (laterEarlier (matched fps msr rp)).length ≤ 10 ^ 10 := by omega
    exact_mod_cast h2
  cases d with
  | true =>
    have e : acc = _ := accOuter_diff _ _ _ _ (by simp [laterEarlier])
    simp only [List.nil_append, laterEarlier_map, List.map_map, Function.comp_def, Match.toStat, weightOf_eq] at e
    have hN : ((laterEarlier (matched fps msr rp)).map (fun p => share msr p.1.m.id * share msr p.2.m.id)).sum ≤ 10 ^ 10 := by
      have := List.sum_le_card_nsmul ((laterEarlier (matched fps msr rp)).map (fun p => share msr p.1.m.id * share msr p.2.m.id)) 1 (by
        intro x hx
        obtain ⟨p, hp, rfl⟩ := List.mem_map.mp hx
        obtain ⟨hp1, hp2⟩ := mem_laterEarlier _ _ hp
        exact mul_le_one₀ (hsh _) (hsh0 _ hp2) (hsh _))
      rw [List.length_map, nsmul_eq_mul, mul_one] at this
      linarith
    rw [e]
    refine ⟨?_, ?_, by simp [shareSum], by dsimp only; linarith⟩
    · apply sum_ge_of_mem
      · norm_num
      · intro x hx
        obtain ⟨p, -, rfl⟩ := List.mem_map.mp hx
        exact le_max_right _ _
      · simpa using laterEarlier_ne_nil _ (by omega)
    · have := sum_penalty_le (laterEarlier (matched fps msr rp))
        (fun p : Match × Match => (p.1.f.stat.mean - p.2.f.stat.mean) - (p.1.m.rssi - p.2.m.rssi))
        (fun p => share msr p.1.m.id * share msr p.2.m.id) 800 (by
          intro p hp
          obtain ⟨hp1, hp2⟩ := mem_laterEarlier _ _ hp
          exact mul_nonneg (hsh0 _ hp1) (hsh0 _ hp2)) (by
          intro p hp
          obtain ⟨hp1, hp2⟩ := mem_laterEarlier _ _ hp
          obtain ⟨c1, c2⟩ := abs_le.mp (hb _ hp1).1
          obtain ⟨c3, c4⟩ := abs_le.mp (hb _ hp1).2
          obtain ⟨c5, c6⟩ := abs_le.mp (hb _ hp2).1
          obtain ⟨c7, c8⟩ := abs_le.mp (hb _ hp2).2
          rw [abs_le]
          constructor <;> linarith)
      dsimp only at this ⊢
      linarith
  | false =>
    have e : acc = _ := accOuter_abs _ _ _ _
    simp only [List.map_map, Function.comp_def, Match.toStat, weightOf_eq, zero_add] at e
    have hlen' : ((matched fps msr rp).length : ℝ) ≤ 10 ^ 4 := by exact_mod_cast hM
    have hN : ((matched fps msr rp).map (fun p => share msr p.m.id)).sum ≤ 10 ^ 4 := by
      have := List.sum_le_card_nsmul ((matched fps msr rp).map (fun p => share msr p.m.id)) 1 (by
        intro x hx
        obtain ⟨p, hp, rfl⟩ := List.mem_map.mp hx
        exact hsh _)
      rw [List.length_map, nsmul_eq_mul, mul_one] at this
      linarith
    rw [e]
    refine ⟨?_, ?_, by simp [shareSum], by dsimp only; linarith⟩
    · apply sum_ge_of_mem
      · norm_num
      · intro x hx
        obtain ⟨p, -, rfl⟩ := List.mem_map.mp hx
        exact le_max_right _ _
      · have : matched fps msr rp ≠ [] := by intro h; rw [h] at h3; simp at h3
        simpa using this
    · have := sum_penalty_le (matched fps msr rp) (fun p : Match => p.f.stat.mean + p.m.rssi) (fun p => share msr p.m.id) 400 hsh0 (by
          intro p hp
          obtain ⟨c1, c2⟩ := abs_le.mp (hb _ hp).1
          obtain ⟨c3, c4⟩ := abs_le.mp (hb _ hp).2
          rw [abs_le]
          constructor <;> linarith)
      dsimp only at this ⊢
      linarith

/-- The weights of all reference points. -/
theorem weights_within (trustF : RadioData → ℝ) (fps : List Fingerprint) (msr : List RadioData) (d : Bool) (hs : SaneRadio fps msr)
    (ht : Accurate trustF msr) (hc : Clear fps msr d) (rp : String) :
    ((matched fps msr rp).length < 3 → StdMap.find? (rpWeightsF R trustF fps msr d) rp = none ∧
      StdMap.find? (calcRpWeightsKnn fps msr d) rp = none) ∧
    (3 ≤ (matched fps msr rp).length → ∃ w' w, StdMap.find? (rpWeightsF R trustF fps msr d) rp = some w' ∧
      StdMap.find? (calcRpWeightsKnn fps msr d) rp = some w ∧ Within (29 * 10 ^ 8) w' w) := by
  obtain ⟨h1, h2⟩ := rpStatistics_find fps msr rp
  have hW : ∀ m ∈ msr, Within (10 ^ 7) (trustF m) (trustSpec m) := fun m hm => accurate_within (trustSpec_pos m) (ht m hm)
  have hR : ∀ m ∈ msr, 1 / 10 ^ 24 ≤ trustSpec m ∧ trustSpec m ≤ 10 ^ 24 := fun m hm => trust_range (hs.rssi m hm) (hs.power m hm)
  have hn := hs.signals
  have hsh := fun id => share_within R trustF msr id (K := 10 ^ 7) (by omega) hW hR
  have eF : StdMap.find? (rpWeightsF R trustF fps msr d) rp = (StdMap.find? (rpStatistics fps msr) rp).bind (fun v => if v.length < 3 then none
      else some (finishWeightF R v.length (accOuterF R (transmittersWeightsF R trustF msr) d [] v (0, 0)))) := by
    unfold rpWeightsF
    dsimp only
    exact find?_filterMap (fun v : List SigStat => v.length < 3)
      (fun v => finishWeightF R v.length (accOuterF R (transmittersWeightsF R trustF msr) d [] v (0, 0))) _ h2 rp
  have eE : StdMap.find? (calcRpWeightsKnn fps msr d) rp = (StdMap.find? (rpStatistics fps msr) rp).bind (fun v => if v.length < 3 then none
      else some (finishWeight v.length (accOuter (calcTransmittersWeights msr) d [] v (0, 0)))) := by
    unfold calcRpWeightsKnn
    dsimp only
    exact find?_filterMap (fun v : List SigStat => v.length < 3)
      (fun v => finishWeight v.length (accOuter (calcTransmittersWeights msr) d [] v (0, 0))) _ h2 rp
  rw [eF, eE, h1]
  constructor
  · intro h
    by_cases hm : matched fps msr rp = []
    · simp [hm]
    · rw [if_neg hm]
      simp [h]
  · intro h3
    have hm : matched fps msr rp ≠ [] := by intro h; rw [h] at h3; simp at h3
    rw [if_neg hm]
    simp only [Option.bind_some, List.length_map, if_neg (not_lt.mpr h3)]
    refine ⟨_, _, rfl, rfl, ?_⟩
    obtain ⟨b1, b2, b3, b4⟩ := acc_bounds fps msr hs d rp h3 (fun id => (hsh id).2.1)
    have hN := hs.matches_ rp
    have hacc := outer_within R (a := 2 * 10 ^ 7 + msr.length + 1) (N := (matched fps msr rp).length)
      (wF := transmittersWeightsF R trustF msr) (w := calcTransmittersWeights msr)
      (fun id => by rw [weightOf_eq]; exact (hsh id).1) (fun id => by rw [weightOf_eq]; exact (hsh id).2.1) d
      ((matched fps msr rp).map Match.toStat) (by
        intro b hb
        obtain ⟨x, hx, rfl⟩ := List.mem_map.mp hb
        exact ⟨hs.mean _ (mem_matched hx).2.1, hs.rssi _ (mem_matched hx).1, by
          rw [weightOf_eq]; exact (hsh x.m.id).2.2 ⟨x.m, (mem_matched hx).1, rfl⟩⟩)
      [] (by simp) (by simp) (j := 0) (acc' := (0, 0)) (acc := (0, 0)) ⟨Within.refl le_rfl, Within.refl le_rfl⟩ (by
        rw [List.length_map]
        nlinarith)
    rw [List.length_map] at hacc
    have hNN : (matched fps msr rp).length * (matched fps msr rp).length ≤ 10 ^ 4 * 10 ^ 4 := Nat.mul_le_mul hN hN
    have hfin := finish_within R hacc (n := (matched fps msr rp).length) (by omega) b1 b2 h3 (by omega) (by rw [b3]; exact hc rp h3) b4
    have e := finish_eq (matched fps msr rp).length (accOuter (calcTransmittersWeights msr) d [] ((matched fps msr rp).map Match.toStat) (0, 0)).1
      (accOuter (calcTransmittersWeights msr) d [] ((matched fps msr rp).map Match.toStat) (0, 0)).2 b1 h3
    rw [← e] at hfin
    exact hfin.mono (by omega)

/-- **C158.** In floating point the same reference points have a weight as in exact arithmetic, and each weight is exact up to
a millionth. -/
theorem C158_weights (trustF : RadioData → ℝ) (fps : List Fingerprint) (msr : List RadioData) (d : Bool) (hs : SaneRadio fps msr)
    (ht : Accurate trustF msr) (hc : Clear fps msr d) (rp : String) :
    ((StdMap.find? (rpWeightsF R trustF fps msr d) rp).isSome ↔ (StdMap.find? (calcRpWeightsKnn fps msr d) rp).isSome) ∧
    ∀ w' w, StdMap.find? (rpWeightsF R trustF fps msr d) rp = some w' → StdMap.find? (calcRpWeightsKnn fps msr d) rp = some w →
      |w' - w| ≤ 1 / 10 ^ 6 * w := by
  obtain ⟨h1, h2⟩ := weights_within R trustF fps msr d hs ht hc rp
  by_cases h3 : 3 ≤ (matched fps msr rp).length
  · obtain ⟨v', v, e1, e2, hW⟩ := h2 h3
    rw [e1, e2]
    refine ⟨by simp, ?_⟩
    intro w' w q1 q2
    cases q1
    cases q2
    have := hW.near (by norm_num)
    linarith [hW.y0]
  · obtain ⟨e1, e2⟩ := h1 (not_le.mp h3)
    rw [e1, e2]
    exact ⟨Iff.rfl, by simp⟩

theorem weightOf_within (trustF : RadioData → ℝ) (fps : List Fingerprint) (msr : List RadioData) (d : Bool) (hs : SaneRadio fps msr)
    (ht : Accurate trustF msr) (hc : Clear fps msr d) (rp : String) :
    Within (29 * 10 ^ 8) (weightOf (rpWeightsF R trustF fps msr d) rp) (weightOf (calcRpWeightsKnn fps msr d) rp) ∧
      (weightOf (calcRpWeightsKnn fps msr d) rp = 0 ∨ 1 / 40 ≤ weightOf (calcRpWeightsKnn fps msr d) rp) := by
  obtain ⟨h1, h2⟩ := weights_within R trustF fps msr d hs ht hc rp
  unfold weightOf
  by_cases h3 : 3 ≤ (matched fps msr rp).length
  · obtain ⟨v', v, e1, e2, hW⟩ := h2 h3
    have hb := C29_lower_bound fps msr d rp 200 v (by norm_num) ⟨hs.mean, hs.rssi⟩ e2
    rw [e1, e2]
    refine ⟨hW, .inr (le_trans ?_ hb)⟩
    rw [show (4 * 200 + 100 : ℝ) = 30 ^ 2 by norm_num, Real.sqrt_sq (by norm_num)]
    norm_num
  · obtain ⟨e1, e2⟩ := h1 (not_le.mp h3)
    rw [e1, e2]
    exact ⟨Within.refl le_rfl, .inl rfl⟩

theorem Within.rnd0 {k : ℕ} {x y : ℝ} (h : Within k x y) (hk : k ≤ 3 * 10 ^ 9) (hy : y = 0 ∨ 2 * low ≤ y) : Within (k + 1) (R.rnd x) y := by
  rcases hy with rfl | hy
  · have : x = 0 := le_antisymm (by simpa using h.le) h.x0
    rw [this, R.zero]
    exact Within.refl le_rfl
  · exact h.rnd' R hk hy

/-- The weighted mean of three points. -/
noncomputable def centre (w : List (String × ℝ)) (a b c : ReferencePoint XYPoint) : XYPoint :=
  ⟨(weightOf w a.id * a.point.x + weightOf w b.id * b.point.x + weightOf w c.id * c.point.x) / (weightOf w a.id + weightOf w b.id + weightOf w c.id),
   (weightOf w a.id * a.point.y + weightOf w b.id * b.point.y + weightOf w c.id * c.point.y) / (weightOf w a.id + weightOf w b.id + weightOf w c.id)⟩

theorem maxElementF_spec (w : List (String × ℝ)) (ts : List RpTriangle) (hts : ts ≠ []) :
    ∃ t ∈ ts, maxElementF R w ts = some t ∧ ∀ v ∈ ts, triangleWeightF R w v ≤ triangleWeightF R w t := by
  cases ts with
  | nil => exact absurd rfl hts
  | cons a l =>
    refine ⟨_, ?_, rfl, ?_⟩
    · clear hts
      induction l using List.reverseRecOn with
      | nil => simp
      | append_singleton l x ih =>
        rw [List.foldl_append]
        simp only [List.foldl_cons, List.foldl_nil]
        split_ifs
        · simp
        · rw [← List.cons_append]
          exact List.mem_append_left _ ih
    · clear hts
      induction l using List.reverseRecOn with
      | nil => simp
      | append_singleton l x ih =>
        rw [List.foldl_append]
        simp only [List.foldl_cons, List.foldl_nil]
        intro v hv
        rw [← List.cons_append] at hv
        split_ifs with h
        · rcases List.mem_append.mp hv with hv | hv
          · exact (ih v hv).trans h.le
          · rw [List.mem_singleton.mp hv]
        · rcases List.mem_append.mp hv with hv | hv
          · exact ih v hv
          · rw [List.mem_singleton.mp hv]
            exact not_lt.mp h

/-- The points of the corners of a triangle are known. -/
def Known (rps : List (ReferencePoint XYPoint)) (t : RpTriangle) : Prop :=
  (∃ rp ∈ rps, rp.id = t.rp1) ∧ (∃ rp ∈ rps, rp.id = t.rp2) ∧ ∃ rp ∈ rps, rp.id = t.rp3

/-- The coordinates of three points differ by at most `D`. -/
def Compact (D : ℝ) (a b c : XYPoint) : Prop :=
  (|a.x - b.x| ≤ D ∧ |a.x - c.x| ≤ D ∧ |b.x - c.x| ≤ D) ∧ |a.y - b.y| ≤ D ∧ |a.y - c.y| ≤ D ∧ |b.y - c.y| ≤ D

/-- **C158.** In floating point the answer is, up to a millionth of the size of the triangle and 2·10⁻¹⁵ of the coordinates, the exact
weighted mean of the corners of a triangle whose exact weight is the greatest up to a hundred thousandth; or the origin, if no corner of any
triangle has a weight. -/
theorem C158_place (trustF : RadioData → ℝ) (fps : List Fingerprint) (msr : List RadioData) (d : Bool) (hs : SaneRadio fps msr)
    (ht : Accurate trustF msr) (hc : Clear fps msr d) (ts : List RpTriangle) (hts : ts ≠ []) (rps : List (ReferencePoint XYPoint))
    (hk : ∀ t ∈ ts, Known rps t) {M : ℝ} (hM : 1 ≤ M) (hbox : ∀ rp ∈ rps, |rp.point.x| ≤ M ∧ |rp.point.y| ≤ M) :
    let w := calcRpWeightsKnn fps msr d
    ∃ t ∈ ts, ∃ p, positionInTriangleF R ts (mkRadiomap rps) (rpWeightsF R trustF fps msr d) = .ok p ∧
      (∀ t' ∈ ts, triangleWeight w t' ≤ (1 + 1 / 10 ^ 5) * triangleWeight w t) ∧
      ((triangleWeight w t = 0 ∧ p = ⟨0, 0⟩) ∨
       (0 < triangleWeight w t ∧ ∃ a b c, (mkRadiomap rps).getReferencePoint t.rp1 = some a ∧ (mkRadiomap rps).getReferencePoint t.rp2 = some b ∧
         (mkRadiomap rps).getReferencePoint t.rp3 = some c ∧ a.id = t.rp1 ∧ b.id = t.rp2 ∧ c.id = t.rp3 ∧
         ∀ D, Compact D a.point b.point c.point →
           |p.x - (centre w a b c).x| ≤ 1 / 10 ^ 6 * D + 2 / 10 ^ 15 * M ∧ |p.y - (centre w a b c).y| ≤ 1 / 10 ^ 6 * D + 2 / 10 ^ 15 * M)) := by
  intro w
  set wF := rpWeightsF R trustF fps msr d with hwF
  have hW := fun id => weightOf_within R trustF fps msr d hs ht hc id
  have hlow : 2 * low ≤ 1 / 40 := by unfold low; norm_num
  have h0 : ∀ id, 0 ≤ weightOf w id := fun id => (hW id).1.y0
  have hT : ∀ t, Within (29 * 10 ^ 8 + 2) (triangleWeightF R wF t) (triangleWeight w t) := by
    intro t
    have s1 : weightOf w t.rp1 + weightOf w t.rp2 = 0 ∨ 2 * low ≤ weightOf w t.rp1 + weightOf w t.rp2 := by
      rcases (hW t.rp1).2 with h | h
      · rcases (hW t.rp2).2 with h' | h'
        · left; exact (congrArg₂ (· + ·) h h').trans (by norm_num)
        · right; linarith [h0 t.rp1]
      · right; linarith [h0 t.rp2]
    have s2 : weightOf w t.rp1 + weightOf w t.rp2 + weightOf w t.rp3 = 0 ∨ 2 * low ≤ weightOf w t.rp1 + weightOf w t.rp2 + weightOf w t.rp3 := by
      rcases s1 with h | h
      · rcases (hW t.rp3).2 with h' | h'
        · left; rw [h]; exact (zero_add _).trans h'
        · right; linarith
      · right; linarith [h0 t.rp3]
    exact ((((hW t.rp1).1.add (hW t.rp2).1).rnd0 R (by norm_num) s1).add ((hW t.rp3).1.mono (by omega))).rnd0 R (by norm_num) s2
  have hTpos : ∀ t, triangleWeight w t = 0 ∨ 1 / 40 ≤ triangleWeight w t := by
    intro t
    have g1 := h0 t.rp1
    have g2 := h0 t.rp2
    have g3 := h0 t.rp3
    unfold triangleWeight
    rcases (hW t.rp1).2 with a | a
    · rcases (hW t.rp2).2 with b | b
      · rcases (hW t.rp3).2 with c | c
        · left
          change weightOf w t.rp1 = 0 at a
          change weightOf w t.rp2 = 0 at b
          change weightOf w t.rp3 = 0 at c
          rw [a, b, c]; norm_num
        · right; change 1 / 40 ≤ weightOf w t.rp3 at c; linarith
      · right; change 1 / 40 ≤ weightOf w t.rp2 at b; linarith
    · right; change 1 / 40 ≤ weightOf w t.rp1 at a; linarith
  obtain ⟨t, htm, hmax, hge⟩ := maxElementF_spec R wF ts hts
  have hbest : ∀ t' ∈ ts, triangleWeight w t' ≤ (1 + 1 / 10 ^ 5) * triangleWeight w t := by
    intro t' ht'
    obtain ⟨a1, a2⟩ := abs_le.mp ((hT t').near (by norm_num))
    obtain ⟨b1, b2⟩ := abs_le.mp ((hT t).near (by norm_num))
    have := hge t' ht'
    have := (hT t').y0
    have := (hT t).y0
    linarith
  have get : ∀ id, (∃ rp ∈ rps, rp.id = id) → ∃ rp ∈ rps, rp.id = id ∧ (mkRadiomap rps).hasReferencePoint id = true ∧
      (mkRadiomap rps).getReferencePoint id = some rp := by
    intro id hid
    obtain ⟨-, hhas, hget⟩ := C15_radiomap rps id
    cases hf : rps.find? (fun rp => rp.id == id) with
    | none =>
      rw [List.find?_eq_none] at hf
      obtain ⟨rp, h1, h2⟩ := hid
      exact absurd (by simpa using h2) (hf rp h1)
    | some rp =>
      have hid : rp.id = id := by simpa using List.find?_some (p := fun rp : ReferencePoint XYPoint => rp.id == id) hf
      have hmem := List.mem_of_find?_eq_some hf
      exact ⟨rp, hmem, hid, hhas.mpr ⟨rp, hmem, hid⟩, by rw [hget, hf]⟩
  obtain ⟨k1, k2, k3⟩ := hk t htm
  obtain ⟨a, am, ia, hasa, geta⟩ := get _ k1
  obtain ⟨b, bm, ib, hasb, getb⟩ := get _ k2
  obtain ⟨c, cm, ic, hasc, getc⟩ := get _ k3
  have hTt := hT t
  unfold positionInTriangleF
  rw [hmax]
  dsimp only
  have hnorm : R.rnd (R.rnd (weightOf wF t.rp1 + weightOf wF t.rp2) + weightOf wF t.rp3) = triangleWeightF R wF t := rfl
  rw [hnorm]
  refine ⟨t, htm, ?_⟩
  have heps : doubleEpsilon ≤ 1 / 1000 := by unfold doubleEpsilon; norm_num
  have heps0 : 0 < doubleEpsilon := by unfold doubleEpsilon; positivity
  rcases hTpos t with hz | hp
  · have : triangleWeightF R wF t = 0 := le_antisymm (by have := hTt.le; rw [hz, zero_mul] at this; exact this) hTt.x0
    refine ⟨⟨0, 0⟩, ?_, hbest, .inl ⟨hz, rfl⟩⟩
    rw [this, if_pos heps0]
  · have hl := hTt.large (by norm_num)
    rw [if_neg (by linarith)]
    simp only [hasa, hasb, hasc, geta, getb, getc, Bool.not_true, Bool.or_self, Bool.false_eq_true, if_false]
    refine ⟨_, rfl, hbest, .inr ⟨by linarith, a, b, c, rfl, rfl, rfl, ia, ib, ic, ?_⟩⟩
    rintro D ⟨⟨x12, x13, x23⟩, y12, y13, y23⟩
    have n1 := (hW t.rp1).1.near (by norm_num)
    have n2 := (hW t.rp2).1.near (by norm_num)
    have n3 := (hW t.rp3).1.near (by norm_num)
    have hp' : 0 < weightOf w t.rp1 + weightOf w t.rp2 + weightOf w t.rp3 := lt_of_lt_of_le (by norm_num) hp
    have hv : 1 / 200 ≤ weightOf wF t.rp1 + weightOf wF t.rp2 + weightOf wF t.rp3 := by
      have g1 := (hW t.rp1).1.large (by norm_num)
      have g2 := (hW t.rp2).1.large (by norm_num)
      have g3 := (hW t.rp3).1.large (by norm_num)
      have : 1 / 40 ≤ weightOf w t.rp1 + weightOf w t.rp2 + weightOf w t.rp3 := hp
      change weightOf w t.rp1 / 2 ≤ weightOf wF t.rp1 at g1
      change weightOf w t.rp2 / 2 ≤ weightOf wF t.rp2 at g2
      change weightOf w t.rp3 / 2 ≤ weightOf wF t.rp3 at g3
      linarith
    unfold centre
    rw [ia, ib, ic]
    dsimp only
    constructor
    · have e1 := mean_round R (hW t.rp1).1.x0 (hW t.rp2).1.x0 (hW t.rp3).1.x0 hv hM (hbox a am).1 (hbox b bm).1 (hbox c cm).1
      have e2 := mean_move (h0 t.rp1) (h0 t.rp2) (h0 t.rp3) hp' n1 n2 n3 x12 x13 x23
      have := abs_sub_le (meanF R (weightOf wF t.rp1) (weightOf wF t.rp2) (weightOf wF t.rp3) a.point.x b.point.x c.point.x (triangleWeightF R wF t))
        ((weightOf wF t.rp1 * a.point.x + weightOf wF t.rp2 * b.point.x + weightOf wF t.rp3 * c.point.x) /
          (weightOf wF t.rp1 + weightOf wF t.rp2 + weightOf wF t.rp3))
        ((weightOf w t.rp1 * a.point.x + weightOf w t.rp2 * b.point.x + weightOf w t.rp3 * c.point.x) /
          (weightOf w t.rp1 + weightOf w t.rp2 + weightOf w t.rp3))
      refine this.trans ?_
      rw [add_comm]
      exact add_le_add e2 e1
    · have e1 := mean_round R (hW t.rp1).1.x0 (hW t.rp2).1.x0 (hW t.rp3).1.x0 hv hM (hbox a am).2 (hbox b bm).2 (hbox c cm).2
      have e2 := mean_move (h0 t.rp1) (h0 t.rp2) (h0 t.rp3) hp' n1 n2 n3 y12 y13 y23
      have := abs_sub_le (meanF R (weightOf wF t.rp1) (weightOf wF t.rp2) (weightOf wF t.rp3) a.point.y b.point.y c.point.y (triangleWeightF R wF t))
        ((weightOf wF t.rp1 * a.point.y + weightOf wF t.rp2 * b.point.y + weightOf wF t.rp3 * c.point.y) /
          (weightOf wF t.rp1 + weightOf wF t.rp2 + weightOf wF t.rp3))
        ((weightOf w t.rp1 * a.point.y + weightOf w t.rp2 * b.point.y + weightOf w t.rp3 * c.point.y) /
          (weightOf w t.rp1 + weightOf w t.rp2 + weightOf w t.rp3))
      refine this.trans ?_
      rw [add_comm]
      exact add_le_add e2 e1

/-- **C158.** If one triangle is heavier than all others by a hundred thousandth, the answer is the exact one up to a millionth of
the size of that triangle and 2·10⁻¹⁵ of the coordinates. -/
theorem C158_same (trustF : RadioData → ℝ) (fps : List Fingerprint) (msr : List RadioData) (d : Bool) (hs : SaneRadio fps msr)
    (ht : Accurate trustF msr) (hc : Clear fps msr d) (ts : List RpTriangle) (rps : List (ReferencePoint XYPoint))
    (hk : ∀ t ∈ ts, Known rps t) {M D : ℝ} (hM : 1 ≤ M) (hbox : ∀ rp ∈ rps, |rp.point.x| ≤ M ∧ |rp.point.y| ≤ M)
    (t : RpTriangle) (htm : t ∈ ts)
    (hheavy : ∀ t' ∈ ts, t' ≠ t → (1 + 1 / 10 ^ 5) * triangleWeight (calcRpWeightsKnn fps msr d) t' < triangleWeight (calcRpWeightsKnn fps msr d) t)
    (hD : ∀ a ∈ rps, ∀ b ∈ rps, ∀ c ∈ rps, a.id = t.rp1 → b.id = t.rp2 → c.id = t.rp3 → Compact D a.point b.point c.point) :
    ∃ p q, positionInTriangleF R ts (mkRadiomap rps) (rpWeightsF R trustF fps msr d) = .ok p ∧
      calcPositionInTriangle ts (mkRadiomap rps) (calcRpWeightsKnn fps msr d) = .ok q ∧
      (|p.x - q.x| ≤ 1 / 10 ^ 6 * |D| + 2 / 10 ^ 15 * M ∧ |p.y - q.y| ≤ 1 / 10 ^ 6 * |D| + 2 / 10 ^ 15 * M) := by
  have hts : ts ≠ [] := List.ne_nil_of_mem htm
  set w := calcRpWeightsKnn fps msr d with hw
  have hwn : ∀ q ∈ w, 0 ≤ q.2 := by
    intro q hq
    have := StdMap.find?_of_mem (calcRpWeightsKnn_sorted fps msr d) hq
    exact ((C29_weights fps msr d q.1).2 q.2 this).1.le
  have hTn : ∀ v, 0 ≤ triangleWeight w v := by
    intro v
    have := fun id => (weightOf_within R trustF fps msr d hs ht hc id).1.y0
    exact add_nonneg (add_nonneg (this _) (this _)) (this _)
  obtain ⟨t1, m1, p, e1, b1, h1⟩ := C158_place R trustF fps msr d hs ht hc ts hts rps hk hM hbox
  have et1 : t1 = t := by
    by_contra hne
    have := hheavy t1 m1 hne
    have := b1 t htm
    linarith
  subst et1
  obtain ⟨t2, h2⟩ : ∃ v, maxElement w ts = some v := by
    cases ts with
    | nil => exact absurd rfl hts
    | cons a l => exact ⟨_, rfl⟩
  obtain ⟨bef, aft, hl, c1, c2⟩ := maxElement_spec w ts t2 h2
  have m2 : t2 ∈ ts := by rw [hl]; simp
  have et2 : t2 = t1 := by
    by_contra hne
    have g1 := hheavy t2 m2 hne
    have g2 : triangleWeight w t1 ≤ triangleWeight w t2 := by
      rw [hl] at htm
      rcases List.mem_append.mp htm with h | h
      · exact (c1 _ h).le
      · rcases List.mem_cons.mp h with h | h
        · exact le_of_eq (by rw [h])
        · exact c2 _ h
    have := hTn t2
    linarith
  subst et2
  have hr : 0 ≤ 1 / 10 ^ 6 * |D| + 2 / 10 ^ 15 * M := by positivity
  have heps : doubleEpsilon ≤ 1 / 1000 := by unfold doubleEpsilon; norm_num
  have heps0 : 0 < doubleEpsilon := by unfold doubleEpsilon; positivity
  have hnorm : weightOf w t2.rp1 + weightOf w t2.rp2 + weightOf w t2.rp3 = triangleWeight w t2 := rfl
  rcases h1 with ⟨z, rfl⟩ | ⟨hpos, a, b, c, ga, gb, gc, ia, ib, ic, hn⟩
  · refine ⟨⟨0, 0⟩, ⟨0, 0⟩, e1, ?_, by simpa using hr⟩
    unfold calcPositionInTriangle
    rw [h2]
    dsimp only
    rw [hnorm, z, if_pos heps0]
  · have mem : ∀ id rp, (mkRadiomap rps).getReferencePoint id = some rp → rp.id = id → rp ∈ rps ∧ (mkRadiomap rps).hasReferencePoint id = true := by
      intro id rp h hid
      obtain ⟨-, hhas, hget⟩ := C15_radiomap rps id
      rw [hget] at h
      have := List.mem_of_find?_eq_some h
      exact ⟨this, hhas.mpr ⟨rp, this, hid⟩⟩
    obtain ⟨am, ah⟩ := mem _ _ ga ia
    obtain ⟨bm, bh⟩ := mem _ _ gb ib
    obtain ⟨cm, ch⟩ := mem _ _ gc ic
    have hcp := hD a am b bm c cm ia ib ic
    obtain ⟨n1, n2⟩ := hn D hcp
    have hDa : D ≤ |D| := le_abs_self D
    refine ⟨p, centre w a b c, e1, ?_, by linarith, by linarith⟩
    have hge : ¬ triangleWeight w t2 < doubleEpsilon := by
      have := (weightOf_within R trustF fps msr d hs ht hc t2.rp1).2
      have q1 := (weightOf_within R trustF fps msr d hs ht hc t2.rp1)
      have q2 := (weightOf_within R trustF fps msr d hs ht hc t2.rp2)
      have q3 := (weightOf_within R trustF fps msr d hs ht hc t2.rp3)
      have y1 := q1.1.y0
      have y2 := q2.1.y0
      have y3 := q3.1.y0
      rw [← hw] at q1 q2 q3 y1 y2 y3
      rw [← hnorm] at hpos ⊢
      rcases q1.2 with h | h
      · rcases q2.2 with h' | h'
        · rcases q3.2 with h'' | h''
          · rw [h, h', h''] at hpos; norm_num at hpos
          · linarith
        · linarith
      · linarith
    unfold calcPositionInTriangle
    rw [h2]
    dsimp only
    rw [hnorm, if_neg hge]
    simp only [ah, bh, ch, ga, gb, gc, Bool.not_true, Bool.or_self, Bool.false_eq_true, if_false]
    rw [divide_pos hpos, divide_pos hpos]
    unfold centre
    rw [ia, ib, ic, hnorm]

/-- The two versions of the estimator take the same way up to the mean. -/
theorem same_way (trustF : RadioData → ℝ) (c : Cfg) (htri : c.useTriangles = true) (old : Position) (level : Level) (ts : Int)
    (msr : List RadioData) (st : NavigationStatus) (pos : Position) (hok : calculatePosition c old level ts msr = .ok (st, pos)) :
    (st ≠ .OK ∧ calculatePositionF R trustF c old level ts msr = .ok (st, pos)) ∨
    (st = .OK ∧ ∃ ids fps triangles q, StdMap.find? c.refTransmitters level.id = some ids ∧ StdMap.find? c.radiomaps level.id = some fps ∧
      StdMap.find? c.triangles level.id = some triangles ∧ triangles ≠ [] ∧
      calcPositionInTriangle triangles level.radiomap (calcRpWeightsKnn fps (getWhitelistedMeasurements ids msr) c.useDiffMode) = .ok q ∧
      pos = ⟨q.x, q.y, level.id, 1, ts, false, .INDOOR, 0⟩ ∧
      ∀ p, positionInTriangleF R triangles level.radiomap (rpWeightsF R trustF fps (getWhitelistedMeasurements ids msr) c.useDiffMode) = .ok p →
        calculatePositionF R trustF c old level ts msr = .ok (.OK, ⟨p.x, p.y, level.id, 1, ts, false, .INDOOR, 0⟩)) := by
  unfold calculatePosition at hok
  unfold calculatePositionF
  by_cases he : msr.isEmpty = true
  · rw [if_pos he] at hok ⊢
    cases hok
    exact .inl ⟨by simp, rfl⟩
  rw [if_neg he] at hok ⊢
  cases h1 : StdMap.find? c.refTransmitters level.id with
  | none => rw [h1] at hok; simp at hok
  | some ids =>
    rw [h1] at hok
    dsimp only at hok ⊢
    by_cases hm : (getWhitelistedMeasurements ids msr).length < c.minMsr
    · rw [if_pos hm] at hok ⊢
      cases hok
      exact .inl ⟨by simp, rfl⟩
    rw [if_neg hm] at hok ⊢
    cases h2 : StdMap.find? c.radiomaps level.id with
    | none => rw [h2] at hok; simp at hok
    | some fps =>
      rw [h2] at hok
      dsimp only at hok ⊢
      rw [if_pos htri] at hok
      cases h3 : StdMap.find? c.triangles level.id with
      | none =>
        rw [h3] at hok
        cases hok
        exact .inl ⟨by simp, rfl⟩
      | some tri =>
        rw [h3] at hok
        dsimp only at hok ⊢
        by_cases ht : tri.isEmpty = true
        · rw [if_pos ht] at hok ⊢
          cases hok
          exact .inl ⟨by simp, rfl⟩
        rw [if_neg ht] at hok ⊢
        cases h4 : calcPositionInTriangle tri level.radiomap (calcRpWeightsKnn fps (getWhitelistedMeasurements ids msr) c.useDiffMode) with
        | undefined => rw [h4] at hok; simp at hok
        | throws => rw [h4] at hok; simp at hok
        | ok q =>
          rw [h4] at hok
          cases hok
          refine .inr ⟨rfl, ids, fps, tri, q, rfl, rfl, rfl, by simpa using ht, h4, rfl, ?_⟩
          intro p hp
          rw [hp]

/-- **C158** for the estimator built from the data of a building: when every measurement is of a usual size, one triangle of the level
is heavier than all others by a hundred thousandth, and the exact estimator answers, then the estimator with rounding answers with the
same status, level and time, and a place within a millionth of the longer side of the level plus 2·10⁻¹⁵ of the coordinates. -/
theorem C158_estimator (trustF : RadioData → ℝ) (s : Triang.Sorts) (hE : ∀ l, (s.edges l).Perm l) (hT : ∀ l, (s.triangles l).Perm l)
    (sort : List (String × ℝ) → List (String × ℝ)) (c : LevelCollector) (p : CommonSettings) (hp : p.useTriangles = true) (old : Position)
    (level : Level) (hl : level ∈ c.levels) (hwf : WellFormed level) (hd : DistinctLevels c)
    (hids : (level.radiomap.referencePoints.map (fun rp => rp.id)).Nodup) (ts : Int) (msr : List RadioData)
    (hs : SaneRadio (levelRadiomap level) (usable c level.id msr)) (ht : Accurate trustF (usable c level.id msr))
    (hc : Clear (levelRadiomap level) (usable c level.id msr) p.useDiffMode)
    {M : ℝ} (hM : 1 ≤ M) (hbox : ∀ rp ∈ level.radiomap.referencePoints, |rp.point.x| ≤ M ∧ |rp.point.y| ≤ M)
    (t : Triang.Triangle) (htm : t ∈ levelTriangles s level)
    (hheavy : ∀ t' ∈ levelTriangles s level, (t'.a.id, t'.b.id, t'.c.id) ≠ (t.a.id, t.b.id, t.c.id) →
      (1 + 1 / 10 ^ 5) * triangleWeight (calcRpWeightsKnn (levelRadiomap level) (usable c level.id msr) p.useDiffMode) ⟨t'.a.id, t'.b.id, t'.c.id⟩ <
        triangleWeight (calcRpWeightsKnn (levelRadiomap level) (usable c level.id msr) p.useDiffMode) ⟨t.a.id, t.b.id, t.c.id⟩)
    (st : NavigationStatus) (pos : Position) (hok : calculatePosition (mkCfg s sort c p) old level ts msr = .ok (st, pos)) :
    ∃ pos', calculatePositionF R trustF (mkCfg s sort c p) old level ts msr = .ok (st, pos') ∧
      (st ≠ .OK → pos' = pos) ∧
      (st = .OK → pos' = { pos with x := pos'.x, y := pos'.y } ∧
        |pos'.x - pos.x| ≤ 1 / 10 ^ 6 * longerSide level.geometry.boundingBox + 2 / 10 ^ 15 * M ∧
        |pos'.y - pos.y| ≤ 1 / 10 ^ 6 * longerSide level.geometry.boundingBox + 2 / 10 ^ 15 * M) := by
  rcases same_way R trustF (mkCfg s sort c p) hp old level ts msr st pos hok with ⟨hst, h⟩ | ⟨rfl, ids, fps, tri, q, h1, h2, h3, h4, h5, rfl, h6⟩
  · exact ⟨pos, h, fun _ => rfl, fun h => absurd h hst⟩
  · simp only [mkCfg] at h1 h2 h3 h5 h6
    have hvalid : getWhitelistedMeasurements ids msr = usable c level.id msr := by
      unfold getWhitelistedMeasurements usable
      apply List.filter_congr
      intro m _
      have : HasFingerprint c level.id m.id ↔ m.id ∈ ids := by
        rw [(refTx_find c level.id).1]; rw [h1]; simp
      simp [this]
    have hrm : fps = levelRadiomap level := by
      rw [radiomaps_find] at h2
      have := fingerprintsOf_eq hd hl
      unfold fingerprintsOf at this
      cases hfi : c.levels.reverse.find? (fun l' => l'.id == level.id) with
      | none =>
        rw [List.find?_eq_none] at hfi
        exact absurd (by simp) (hfi level (by simpa using hl))
      | some l' =>
        rw [hfi] at this h2
        simp only at this
        simp only [Option.map_some, Option.some.injEq] at h2
        rw [← h2, this]
    have htri : tri = (levelTriangles s level).map (fun t => ⟨t.a.id, t.b.id, t.c.id⟩) := by
      rcases triangulateFrom_find s c.levels [] level.id tri h3 with h | ⟨l', hl', hid, htri⟩
      · simp at h
      · have : l' = level := eq_of_id hd hl' hl hid
        subst this
        exact htri
    rw [hvalid, hrm, htri] at h5 h6
    have hside := fun u v => C75_sides s hE hT level t htm u v
    have hcor : ∀ t' ∈ levelTriangles s level, Known level.radiomap.referencePoints ⟨t'.a.id, t'.b.id, t'.c.id⟩ := by
      intro t' ht'
      have h := fun u hu => (C75_sides s hE hT level t' ht' u u hu hu).1
      obtain ⟨a, ha, ea⟩ := h t'.a (by simp [Triang.Triangle.corners])
      obtain ⟨b, hb, eb⟩ := h t'.b (by simp [Triang.Triangle.corners])
      obtain ⟨d, hd', ed⟩ := h t'.c (by simp [Triang.Triangle.corners])
      exact ⟨⟨a, ha, by rw [ea]⟩, ⟨b, hb, by rw [eb]⟩, ⟨d, hd', by rw [ed]⟩⟩
    have hD : ∀ u ∈ t.corners, ∀ v ∈ t.corners, |u.x - v.x| ≤ longerSide level.geometry.boundingBox ∧
        |u.y - v.y| ≤ longerSide level.geometry.boundingBox := by
      intro u hu v hv
      have h := (hside u v hu hv).2
      unfold Triang.vdist at h
      exact ⟨(Real.abs_le_sqrt (by linarith [sq_nonneg (u.y - v.y)])).trans h, (Real.abs_le_sqrt (by linarith [sq_nonneg (u.x - v.x)])).trans h⟩
    have hpt : ∀ u ∈ t.corners, ∀ rp ∈ level.radiomap.referencePoints, rp.id = u.id → rp.point.x = u.x ∧ rp.point.y = u.y := by
      intro u hu rp hrp hid
      obtain ⟨rp', hrp', e⟩ := (hside u u hu hu).1
      have : rp = rp' := List.inj_on_of_nodup_map hids hrp hrp' (by rw [hid, e])
      rw [this, e]
      exact ⟨rfl, rfl⟩
    have ha : t.a ∈ t.corners := by simp [Triang.Triangle.corners]
    have hb : t.b ∈ t.corners := by simp [Triang.Triangle.corners]
    have hc' : t.c ∈ t.corners := by simp [Triang.Triangle.corners]
    have hL0 : 0 ≤ longerSide level.geometry.boundingBox := le_trans (abs_nonneg _) (hD _ ha _ ha).1
    have hwf' : level.radiomap = mkRadiomap level.radiomap.referencePoints := hwf
    obtain ⟨x, q', e1, e2, b1, b2⟩ := C158_same R trustF (levelRadiomap level) (usable c level.id msr) p.useDiffMode hs ht hc
      ((levelTriangles s level).map (fun t => ⟨t.a.id, t.b.id, t.c.id⟩)) level.radiomap.referencePoints
      (by intro v hv; obtain ⟨t', ht', rfl⟩ := List.mem_map.mp hv; exact hcor t' ht') hM hbox ⟨t.a.id, t.b.id, t.c.id⟩
      (List.mem_map.mpr ⟨t, htm, rfl⟩)
      (by
        intro v hv hne
        obtain ⟨t', ht', rfl⟩ := List.mem_map.mp hv
        refine hheavy t' ht' ?_
        intro h
        apply hne
        simp only [Prod.mk.injEq] at h
        rw [h.1, h.2.1, h.2.2])
      (D := longerSide level.geometry.boundingBox)
      (by
        intro a ha1 b hb1 d hd1 ia ib id
        obtain ⟨ax, ay⟩ := hpt _ ha a ha1 ia
        obtain ⟨bx, by'⟩ := hpt _ hb b hb1 ib
        obtain ⟨dx, dy⟩ := hpt _ hc' d hd1 id
        unfold Compact
        rw [ax, ay, bx, by', dx, dy]
        exact ⟨⟨(hD _ ha _ hb).1, (hD _ ha _ hc').1, (hD _ hb _ hc').1⟩, (hD _ ha _ hb).2, (hD _ ha _ hc').2, (hD _ hb _ hc').2⟩)
    rw [← hwf'] at e1 e2
    rw [h5] at e2
    simp only [Result.ok.injEq] at e2
    subst e2
    rw [abs_of_nonneg hL0] at b1 b2
    exact ⟨_, h6 x e1, fun h => absurd rfl h, fun _ => ⟨rfl, b1, b2⟩⟩

theorem matched_length_le (fps : List Fingerprint) (msr : List RadioData) (rp : String) :
    (matched fps msr rp).length ≤ msr.length * fps.length := by
  unfold matched
  induction msr with
  | nil => simp
  | cons m l ih =>
    simp only [List.flatMap_cons, List.length_append, List.length_map, List.length_cons]
    have := List.length_filter_le (fun f : Fingerprint => f.tx == m.id && f.rp == rp) fps
    rw [Nat.add_mul]
    omega

/-- **C158.** The sums of shares stay clear of the threshold when the trusts in the signals are of like size: with `r` their greatest ratio and
`n` signals, when `r · n ≤ 10⁴`, for example 33 dB of difference and 100 signals. -/
theorem C158_clear (fps : List Fingerprint) (msr : List RadioData) (d : Bool) (r : ℝ)
    (h : ∀ m ∈ msr, ∀ m' ∈ msr, trustSpec m' ≤ r * trustSpec m) (hn : r * msr.length ≤ 10 ^ 4) : Clear fps msr d := by
  intro rp h3
  right
  have hpos : ∀ m, 0 < trustSpec m := fun m => by unfold trustSpec; positivity
  have hsh : ∀ x ∈ matched fps msr rp, 1 / 10 ^ 4 ≤ share msr x.m.id := by
    intro x hx
    have hm := (mem_matched hx).1
    unfold share
    cases hf : msr.reverse.find? (fun m => m.id == x.m.id) with
    | none =>
      rw [List.find?_eq_none] at hf
      exact absurd (by simp) (hf x.m (by simpa using hm))
    | some m =>
      have hmm : m ∈ msr := by simpa using List.mem_of_find?_eq_some hf
      dsimp only
      have hsum : (msr.map trustSpec).sum ≤ 10 ^ 4 * trustSpec m := by
        have := List.sum_le_card_nsmul (msr.map trustSpec) (r * trustSpec m) (by
          intro y hy
          obtain ⟨m', hm', rfl⟩ := List.mem_map.mp hy
          exact h m hmm m' hm')
        rw [List.length_map, nsmul_eq_mul] at this
        have h2 := mul_le_mul_of_nonneg_right hn (hpos m).le
        linarith
      have hs0 : 0 < (msr.map trustSpec).sum := by
        apply List.sum_pos
        · intro y hy
          obtain ⟨m', -, rfl⟩ := List.mem_map.mp hy
          exact hpos m'
        · simpa using List.ne_nil_of_mem hmm
      rw [le_div_iff₀ hs0]
      linarith
  unfold shareSum
  cases d with
  | true =>
    rw [if_pos rfl]
    have hl : 3 ≤ (laterEarlier (matched fps msr rp)).length := by
      match hM : matched fps msr rp with
      | [] => rw [hM] at h3; simp at h3
      | [_] => rw [hM] at h3; simp at h3
      | [_, _] => rw [hM] at h3; simp at h3
      | _ :: _ :: _ :: _ => simp [laterEarlier]; omega
    have := List.card_nsmul_le_sum ((laterEarlier (matched fps msr rp)).map (fun p => share msr p.1.m.id * share msr p.2.m.id)) (1 / 10 ^ 8) (by
      intro y hy
      obtain ⟨q, hq, rfl⟩ := List.mem_map.mp hy
      obtain ⟨q1, q2⟩ := mem_laterEarlier _ _ hq
      have := mul_le_mul (hsh _ q1) (hsh _ q2) (by norm_num) (le_trans (by norm_num) (hsh _ q1))
      refine le_trans ?_ this
      norm_num)
    rw [List.length_map, nsmul_eq_mul] at this
    have hl' : (3 : ℝ) ≤ (laterEarlier (matched fps msr rp)).length := by exact_mod_cast hl
    linarith
  | false =>
    rw [if_neg (by simp)]
    have := List.card_nsmul_le_sum ((matched fps msr rp).map (fun p => share msr p.m.id)) (1 / 10 ^ 4) (by
      intro y hy
      obtain ⟨q, hq, rfl⟩ := List.mem_map.mp hy
      exact hsh _ hq)
    rw [List.length_map, nsmul_eq_mul] at this
    have h3' : (3 : ℝ) ≤ (matched fps msr rp).length := by exact_mod_cast h3
    linarith

namespace KnnWitness

open Verif.Knn.Witness (st)

/-- Three reference points with three fingerprints each; a fourth has none. -/
noncomputable def fps : List Fingerprint :=
  [⟨"t1", "a", st⟩, ⟨"t2", "a", st⟩, ⟨"t3", "a", st⟩, ⟨"t1", "b", st⟩, ⟨"t2", "b", st⟩, ⟨"t3", "b", st⟩,
   ⟨"t1", "c", st⟩, ⟨"t2", "c", st⟩, ⟨"t3", "c", st⟩]

/-- The reference points. -/
noncomputable def rps : List (ReferencePoint XYPoint) :=
  [⟨"a", ⟨100, 100⟩, Witness2.fp⟩, ⟨"b", ⟨104, 100⟩, Witness2.fp⟩, ⟨"c", ⟨100, 104⟩, Witness2.fp⟩, ⟨"d", ⟨104, 105⟩, []⟩]

theorem fps_eq : fps = levelRadiomap ⟨"L", ⟨0, 0⟩, [], mkRadiomap rps, ⟨[], ⟨⟨100, 100⟩, ⟨106, 106⟩⟩, []⟩, ⟨[], []⟩⟩ := rfl

end KnnWitness

open KnnWitness Witness2 in
/-- The hypotheses are met: with signals of −70, −60 and −80 and a `pow` correct to the last bit, every rounding of the code gives a
place within 5 micrometres of the exact answer. -/
theorem C158_example (d : Bool) :
    ∃ p q, positionInTriangleF R [⟨"a", "b", "c"⟩, ⟨"b", "c", "d"⟩] (mkRadiomap KnnWitness.rps)
        (rpWeightsF R trustSpec fps msr d) = .ok p ∧
      calcPositionInTriangle [⟨"a", "b", "c"⟩, ⟨"b", "c", "d"⟩] (mkRadiomap KnnWitness.rps) (calcRpWeightsKnn fps msr d) = .ok q ∧
      |p.x - q.x| ≤ 5 / 10 ^ 6 ∧ |p.y - q.y| ≤ 5 / 10 ^ 6 := by
  have hlen : ∀ rp, (matched fps msr rp).length ≤ 27 := fun rp => by
    have := matched_length_le fps msr rp
    simpa [fps, msr] using this
  have hs : SaneRadio fps msr := by
    constructor
    · intro f hf
      have : f.stat = Witness.st := by
        simp only [fps, List.mem_cons, List.not_mem_nil, or_false] at hf
        rcases hf with rfl | rfl | rfl | rfl | rfl | rfl | rfl | rfl | rfl <;> rfl
      rw [this]
      simp only [Witness.st]
      norm_num
    · intro m hm
      simp only [msr, List.mem_cons, List.not_mem_nil, or_false] at hm
      rcases hm with rfl | rfl | rfl <;> norm_num
    · intro m hm
      simp only [msr, List.mem_cons, List.not_mem_nil, or_false] at hm
      rcases hm with rfl | rfl | rfl <;> norm_num
    · simp [msr]
    · intro rp
      have := hlen rp
      omega
  have hc : Clear fps msr d := by
    refine C158_clear fps msr d 100 ?_ (by simp [msr]; norm_num)
    have key : ∀ m ∈ msr, trustSpec m = (10 : ℝ) ^ (-(3 / 50 : ℝ) * (-10 - m.rssi)) ∧ -80 ≤ m.rssi ∧ m.rssi ≤ -60 := by
      intro m hm
      simp only [msr, List.mem_cons, List.not_mem_nil, or_false] at hm
      rcases hm with rfl | rfl | rfl <;> refine ⟨?_, by norm_num, by norm_num⟩ <;> unfold trustSpec <;> norm_num
    intro m hm m' hm'
    obtain ⟨e, a1, -⟩ := key m hm
    obtain ⟨e', -, a2⟩ := key m' hm'
    rw [e, e', show (100 : ℝ) = (10 : ℝ) ^ (2 : ℝ) by norm_num, ← Real.rpow_add (by norm_num)]
    exact Real.rpow_le_rpow_of_exponent_le (by norm_num) (by linarith)
  have ha : Accurate trustSpec msr := by
    intro m _
    rw [sub_self, abs_zero]
    have : 0 < trustSpec m := by unfold trustSpec; positivity
    positivity
  have hw : ∀ rp, rp = "a" ∨ rp = "b" ∨ rp = "c" → ∃ w, StdMap.find? (calcRpWeightsKnn fps msr d) rp = some w := by
    intro rp h
    rw [← Option.isSome_iff_exists, (C29_weights fps msr d rp).1]
    rcases h with rfl | rfl | rfl <;> simp [matched, msr, fps]
  obtain ⟨wa, ea⟩ := hw "a" (.inl rfl)
  obtain ⟨wb, eb⟩ := hw "b" (.inr (.inl rfl))
  obtain ⟨wc, ec⟩ := hw "c" (.inr (.inr rfl))
  obtain ⟨pa, qa⟩ := (C29_weights fps msr d "a").2 wa ea
  obtain ⟨pb, qb⟩ := (C29_weights fps msr d "b").2 wb eb
  obtain ⟨pc, qc⟩ := (C29_weights fps msr d "c").2 wc ec
  have hab : wa = wb := by
    rw [qa, qb]
    simp [matched, msr, fps, diffWeight, absWeight, laterEarlier]
  have hac : wa = wc := by
    rw [qa, qc]
    simp [matched, msr, fps, diffWeight, absWeight, laterEarlier]
  have hdn : StdMap.find? (calcRpWeightsKnn fps msr d) "d" = none := by
    cases h : StdMap.find? (calcRpWeightsKnn fps msr d) "d" with
    | none => rfl
    | some w =>
      have := (C29_weights fps msr d "d").1.mp (by rw [h]; rfl)
      simp [matched, msr, fps] at this
  obtain ⟨p, q, hp, hq, hx, hy⟩ := C158_same R trustSpec fps msr d hs ha hc [⟨"a", "b", "c"⟩, ⟨"b", "c", "d"⟩] KnnWitness.rps
    (by intro t ht; simp only [List.mem_cons, List.not_mem_nil, or_false] at ht; rcases ht with rfl | rfl <;> simp [Known, KnnWitness.rps])
    (M := 105) (D := 4) (by norm_num)
    (by
      intro rp hrp
      simp only [KnnWitness.rps, List.mem_cons, List.not_mem_nil, or_false] at hrp
      rcases hrp with rfl | rfl | rfl | rfl <;> norm_num)
    ⟨"a", "b", "c"⟩ (by simp)
    (by
      intro t ht hne
      simp only [List.mem_cons, List.not_mem_nil, or_false] at ht
      rcases ht with rfl | rfl
      · exact absurd rfl hne
      · unfold triangleWeight weightOf
        simp only [ea, eb, ec, hdn, Option.getD_some, Option.getD_none]
        rw [← hab, ← hac]
        linarith)
    (by
      intro a ha b hb c hc ia ib ic
      simp only [KnnWitness.rps, List.mem_cons, List.not_mem_nil, or_false] at ha hb hc
      rcases ha with rfl | rfl | rfl | rfl <;> simp at ia
      rcases hb with rfl | rfl | rfl | rfl <;> simp at ib
      rcases hc with rfl | rfl | rfl | rfl <;> simp at ic
      unfold Compact
      norm_num)
  refine ⟨p, q, hp, hq, hx.trans ?_, hy.trans ?_⟩ <;> rw [abs_of_pos (by norm_num)] <;> norm_num

end Verif.Fp
