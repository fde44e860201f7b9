import Verif.Knn.EstimatorProps

/-!
# C75: the KNN position lies among the reference points
-/

namespace Verif.Knn

open Verif.Levels
open Verif.Geo (XYPoint)

/-- The longer side of a box. -/
noncomputable def longerSide (b : Box) : ℝ := max (b.maxCorner.x - b.minCorner.x) (b.maxCorner.y - b.minCorner.y)

/-- The triangles of a level's reference points with sides up to the longer side of the level's
bounding box. -/
noncomputable def levelTriangles (s : Triang.Sorts) (l : Level) : List Triang.Triangle :=
  Triang.triangulateVertices s (l.radiomap.referencePoints.map (fun rp => ⟨rp.point.x, rp.point.y, rp.id⟩))
    (longerSide l.geometry.boundingBox)

theorem triangulateFrom_find (s : Triang.Sorts) (ls : List Level) (m : List (String × List RpTriangle)) (id : String)
    (ts : List RpTriangle) (h : StdMap.find? (triangulateFrom s ls m) id = some ts) :
    StdMap.find? m id = some ts ∨
    ∃ l ∈ ls, l.id = id ∧ ts = (levelTriangles s l).map (fun t => ⟨t.a.id, t.b.id, t.c.id⟩) := by
  induction ls generalizing m with
  | nil => exact .inl h
  | cons l ls ih =>
    unfold triangulateFrom at h
    simp only at h
    split_ifs at h with h1 h2
    · exact .inl h
    · rcases ih _ h with h | ⟨l', hl', h⟩
      · rw [StdMap.find?_insert] at h
        by_cases hk : l.id = id
        · cases hf : StdMap.find? m id with
          | none =>
            simp only [hf, hk, if_true, Option.some.injEq, Option.getD_none] at h
            exact .inr ⟨l, by simp, hk, h.symm⟩
          | some v =>
            simp only [hf, hk, if_true, Option.some.injEq, Option.getD_some] at h
            exact .inl (by rw [h])
        · simp only [hk, if_false] at h
          exact .inl h
      · exact .inr ⟨l', List.mem_cons_of_mem _ hl', h⟩
    · rcases ih _ h with h | ⟨l', hl', h⟩
      · exact .inl h
      · exact .inr ⟨l', List.mem_cons_of_mem _ hl', h⟩

/-- No two levels share an id. -/
def DistinctLevels (c : LevelCollector) : Prop := c.levels.Pairwise (fun a b => a.id ≠ b.id)

theorem eq_of_id {c : LevelCollector} (h : DistinctLevels c) {a b : Level} (ha : a ∈ c.levels) (hb : b ∈ c.levels)
    (hid : a.id = b.id) : a = b := by
  refine List.inj_on_of_nodup_map (f := Level.id) ?_ ha hb hid
  unfold List.Nodup
  rw [List.pairwise_map]
  exact h

theorem fingerprintsOf_eq {c : LevelCollector} (h : DistinctLevels c) {l : Level} (hl : l ∈ c.levels) :
    fingerprintsOf c l.id = levelRadiomap l := by
  unfold fingerprintsOf
  cases hfi : c.levels.reverse.find? (fun l' => l'.id == l.id) with
  | none =>
    rw [List.find?_eq_none] at hfi
    exact absurd (by simp) (hfi l (by simpa using hl))
  | some l' =>
    have hid : l'.id = l.id := by simpa using List.find?_some (p := fun l' : Level => l'.id == l.id) hfi
    have hmem := List.mem_of_find?_eq_some hfi
    rw [List.mem_reverse] at hmem
    simp only [eq_of_id h hmem hl hid]

/-- What `calculatePosition` does in triangle mode once it gets that far. -/
theorem triangle_mode (s : Triang.Sorts) (sort : List (String × ℝ) → List (String × ℝ)) (c : LevelCollector)
    (p : CommonSettings) (hp : p.useTriangles = true) (old : Position) (level : Level) (hl : level ∈ c.levels)
    (hd : DistinctLevels c) (ts : Int) (msr : List RadioData) (pos : Position)
    (hok : calculatePosition (mkCfg s sort c p) old level ts msr = .ok (.OK, pos)) :
    ∃ q, levelTriangles s level ≠ [] ∧ pos.x = q.x ∧ pos.y = q.y ∧
      calcPositionInTriangle ((levelTriangles s level).map (fun t => ⟨t.a.id, t.b.id, t.c.id⟩)) level.radiomap
        (calcRpWeightsKnn (levelRadiomap level) (usable c level.id msr) p.useDiffMode) = .ok q := by
  obtain ⟨h1, -⟩ := refTx_find c level.id
  unfold calculatePosition at hok
  by_cases hemp : msr.isEmpty = true
  · rw [if_pos hemp] at hok; simp at hok
  rw [if_neg hemp] at hok
  simp only [mkCfg] at hok
  cases hf : StdMap.find? (getLevelReferenceTransmittersMap c) level.id with
  | none => rw [hf] at hok; simp at hok
  | some ids =>
    rw [hf] at hok
    simp only at hok
    have hvalid : getWhitelistedMeasurements ids msr = usable c level.id msr := by
      unfold getWhitelistedMeasurements usable
      apply List.filter_congr
      intro m _
      have : HasFingerprint c level.id m.id ↔ m.id ∈ ids := by
        rw [h1]; rw [hf]; simp
      simp [this]
    rw [hvalid] at hok
    by_cases hlen : (usable c level.id msr).length < p.minNumOfMeasurementsForPositionCalculation
    · simp [hlen] at hok
    simp only [hlen, if_false] at hok
    have hrm : StdMap.find? (getLevelsRadiomaps c) level.id = some (levelRadiomap level) := by
      rw [radiomaps_find]
      have := fingerprintsOf_eq hd hl
      unfold fingerprintsOf at this
      cases hfi : c.levels.reverse.find? (fun l' => l'.id == level.id) with
      | none =>
        rw [List.find?_eq_none] at hfi
        exact absurd (by simp) (hfi level (by simpa using hl))
      | some l' => rw [hfi] at this; simp only at this; simp [this]
    rw [hrm] at hok
    simp only [hp, if_true] at hok
    cases ht : StdMap.find? (triangulate s c) level.id with
    | none => rw [ht] at hok; simp at hok
    | some tri =>
      rw [ht] at hok
      simp only at hok
      rcases triangulateFrom_find s c.levels [] level.id tri ht with h | ⟨l', hl', hid, htri⟩
      · simp at h
      · have : l' = level := eq_of_id hd hl' hl hid
        subst this
        by_cases hem : tri.isEmpty = true
        · rw [if_pos hem] at hok; simp at hok
        · rw [if_neg hem] at hok
          rw [htri] at hok
          have hne : levelTriangles s l' ≠ [] := by
            intro h0; rw [htri, h0] at hem; simp at hem
          cases hc : calcPositionInTriangle ((levelTriangles s l').map (fun t => ⟨t.a.id, t.b.id, t.c.id⟩)) l'.radiomap
            (calcRpWeightsKnn (levelRadiomap l') (usable c l'.id msr) p.useDiffMode) with
          | undefined => rw [hc] at hok; simp at hok
          | throws => rw [hc] at hok; simp at hok
          | ok q =>
            rw [hc] at hok
            simp only [Result.ok.injEq, Prod.mk.injEq, true_and] at hok
            exact ⟨q, hne, by rw [← hok], by rw [← hok], rfl⟩

/-- **C75.** With a non vanishing weight a triangle position lies inside a triangle whose corners are
reference points of the level; otherwise it is the origin and every triangle of the level has a total
weight below 2⁻⁵². -/
theorem C75_dichotomy (s : Triang.Sorts) (hE : ∀ l, (s.edges l).Perm l) (hT : ∀ l, (s.triangles l).Perm l)
    (sort : List (String × ℝ) → List (String × ℝ)) (c : LevelCollector)
    (p : CommonSettings) (hp : p.useTriangles = true) (old : Position) (level : Level) (hl : level ∈ c.levels)
    (hwf : WellFormed level) (hd : DistinctLevels c) (ts : Int) (msr : List RadioData) (pos : Position)
    (hok : calculatePosition (mkCfg s sort c p) old level ts msr = .ok (.OK, pos)) :
    (∃ a ∈ level.radiomap.referencePoints, ∃ b ∈ level.radiomap.referencePoints, ∃ d ∈ level.radiomap.referencePoints,
      InTriangle ⟨pos.x, pos.y⟩ a.point b.point d.point) ∨
    (pos.x = 0 ∧ pos.y = 0 ∧ ∀ t ∈ levelTriangles s level,
      triangleWeight (calcRpWeightsKnn (levelRadiomap level) (usable c level.id msr) p.useDiffMode)
        ⟨t.a.id, t.b.id, t.c.id⟩ < 1 / 2 ^ 52) := by
  obtain ⟨q, hne, hx, hy, hq⟩ := triangle_mode s sort c p hp old level hl hd ts msr pos hok
  have hw : ∀ q ∈ calcRpWeightsKnn (levelRadiomap level) (usable c level.id msr) p.useDiffMode, 0 ≤ q.2 := by
    intro q hq
    have hq' := StdMap.find?_of_mem (calcRpWeightsKnn_sorted (levelRadiomap level) (usable c level.id msr) p.useDiffMode) (k := q.1) (v := q.2) hq
    exact ((C29_weights _ _ _ _).2 _ hq').1.le
  obtain ⟨t, bef, aft, pt, hsplit, hb, ha, hpt, hcase⟩ :=
    C30_in_triangle ((levelTriangles s level).map (fun t => (⟨t.a.id, t.b.id, t.c.id⟩ : RpTriangle)))
      (by simpa using hne) level.radiomap.referencePoints _ hw
  rw [← hwf, hq] at hpt
  have hqp : q = pt := by simpa using hpt
  subst hqp
  have htmem : t ∈ (levelTriangles s level).map (fun t => (⟨t.a.id, t.b.id, t.c.id⟩ : RpTriangle)) := by rw [hsplit]; simp
  rcases hcase with ⟨h0, hlt | ⟨id, hid, hno⟩⟩ | ⟨a, ha, b, hb, d, hd', -, -, -, -, -, -, hin⟩
  · right
    refine ⟨by rw [hx, h0], by rw [hy, h0], ?_⟩
    intro u hu
    have hu' : (⟨u.a.id, u.b.id, u.c.id⟩ : RpTriangle) ∈ bef ++ t :: aft := by
      rw [← hsplit]; exact List.mem_map.mpr ⟨u, hu, rfl⟩
    rcases List.mem_append.mp hu' with h | h
    · exact (hb _ h).trans hlt
    · rcases List.mem_cons.mp h with h | h
      · rw [h]; exact hlt
      · exact lt_of_le_of_lt (ha _ h) hlt
  · exfalso
    obtain ⟨u, hu, hut⟩ := List.mem_map.mp htmem
    have hcorn := (((Triang.C48_output s hE hT _ _).2 u hu).1)
    have hknown : ∀ v ∈ u.corners, ∃ rp ∈ level.radiomap.referencePoints, rp.id = v.id := by
      intro v hv
      obtain ⟨rp, hrp, h⟩ := List.mem_map.mp (hcorn v hv).1
      exact ⟨rp, hrp, by rw [← h]⟩
    rw [← hut] at hid
    simp only [List.mem_cons, List.not_mem_nil, or_false] at hid
    have : ∃ rp ∈ level.radiomap.referencePoints, rp.id = id := by
      rcases hid with rfl | rfl | rfl <;> apply hknown <;> simp [Triang.Triangle.corners]
    obtain ⟨rp, hrp, h⟩ := this
    exact hno rp hrp h
  · left
    refine ⟨a, ha, b, hb, d, hd', ?_⟩
    rw [hx, hy]
    exact hin

/-! ### How small a weight can be -/

theorem combine_ge (n : ℕ) (S N B : ℝ) (k : ℕ) (hn : 3 ≤ n) (hk : k ≤ n * n) (hB : 0 ≤ B) (hS0 : 0 < S)
    (hN : 0 ≤ N) (hS : S ≤ B * N + k * (1 / 1000000)) : 1 / Real.sqrt (B + 100) ≤ combine n S N := by
  unfold combine
  have hnR : (3 : ℝ) ≤ n := by exact_mod_cast hn
  have hkR : (k : ℝ) ≤ n * n := by exact_mod_cast hk
  set X := if N > 1 / 100000000 then S / N else S with hX
  have hXpos : 0 < X := by
    rw [hX]; split_ifs with h
    · exact div_pos hS0 (lt_trans (by norm_num) h)
    · exact hS0
  have hXle : X ≤ (n * n) * (B + 100) := by
    have hnn : (1 : ℝ) ≤ n * n := by nlinarith
    have hBn : B ≤ (n * n) * B := le_mul_of_one_le_left hB hnn
    rw [hX]; split_ifs with h
    · rw [div_le_iff₀ (lt_trans (by norm_num) h)]
      have h1 : (k : ℝ) * (1 / 1000000) ≤ (n * n) * 100 * N := by
        have : (k : ℝ) * (1 / 1000000) ≤ (n * n) * (1 / 1000000) := by
          apply mul_le_mul_of_nonneg_right hkR; norm_num
        have h3 : (n * n : ℝ) * (1 / 1000000) ≤ (n * n) * (100 * N) := by
          apply mul_le_mul_of_nonneg_left _ (by linarith)
          linarith
        linarith
      have h2 : B * N ≤ (n * n) * B * N := by
        apply mul_le_mul_of_nonneg_right hBn hN
      linarith
    · have h' := not_lt.mp h
      have h1 : B * N ≤ B * (1 / 100000000) := mul_le_mul_of_nonneg_left h' hB
      have h2 : B * (1 / 100000000) ≤ B := by linarith
      have h3 : (k : ℝ) * (1 / 1000000) ≤ (n * n) * 100 := by linarith
      linarith
  have hs : Real.sqrt X ≤ n * Real.sqrt (B + 100) := by
    rw [show (n : ℝ) * Real.sqrt (B + 100) = Real.sqrt ((n * n) * (B + 100)) by
      rw [Real.sqrt_mul (by positivity), Real.sqrt_mul_self (by linarith)]]
    exact Real.sqrt_le_sqrt hXle
  rw [div_le_div_iff₀ (Real.sqrt_pos.mpr (by linarith)) (Real.sqrt_pos.mpr hXpos)]
  linarith

theorem sum_penalty_le {α : Type} (l : List α) (g a : α → ℝ) (B : ℝ) (ha : ∀ x ∈ l, 0 ≤ a x)
    (hg : ∀ x ∈ l, |g x| ≤ B) :
    (l.map (fun x => max (|g x| * a x) (1 / 1000000))).sum ≤ B * (l.map a).sum + l.length * (1 / 1000000) := by
  induction l with
  | nil => simp
  | cons x l ih =>
    have ih := ih (fun y hy => ha y (List.mem_cons_of_mem _ hy)) (fun y hy => hg y (List.mem_cons_of_mem _ hy))
    simp only [List.map_cons, List.sum_cons, List.length_cons]
    push_cast
    have hx := mul_le_mul_of_nonneg_right (hg x (by simp)) (ha x (by simp))
    have hx0 : 0 ≤ B * a x := mul_nonneg ((abs_nonneg _).trans (hg x (by simp))) (ha x (by simp))
    have hm : max (|g x| * a x) (1 / 1000000) ≤ B * a x + 1 / 1000000 := by
      apply max_le <;> linarith
    linarith

theorem laterEarlier_length {α : Type} (l : List α) : (laterEarlier l).length ≤ l.length * l.length := by
  induction l with
  | nil => simp [laterEarlier]
  | cons a l ih =>
    simp only [laterEarlier, List.length_append, List.length_map, List.length_cons]
    nlinarith

theorem mem_laterEarlier {α : Type} (l : List α) (p : α × α) (h : p ∈ laterEarlier l) : p.1 ∈ l ∧ p.2 ∈ l := by
  induction l with
  | nil => simp [laterEarlier] at h
  | cons a l ih =>
    simp only [laterEarlier, List.mem_append, List.mem_map] at h
    rcases h with ⟨b, hb, rfl⟩ | h
    · exact ⟨List.mem_cons_of_mem _ hb, List.mem_cons_self⟩
    · exact ⟨List.mem_cons_of_mem _ (ih h).1, List.mem_cons_of_mem _ (ih h).2⟩

/-- Signal levels within ±`B`. -/
def Bounded (B : ℝ) (fps : List Fingerprint) (msr : List RadioData) : Prop :=
  (∀ f ∈ fps, |f.stat.mean| ≤ B) ∧ ∀ m ∈ msr, |m.rssi| ≤ B

theorem mem_matched {fps : List Fingerprint} {msr : List RadioData} {rp : String} {x : Match}
    (h : x ∈ matched fps msr rp) : x.m ∈ msr ∧ x.f ∈ fps ∧ x.f.tx = x.m.id ∧ x.f.rp = rp := by
  unfold matched at h
  obtain ⟨m, hm, hx⟩ := List.mem_flatMap.mp h
  obtain ⟨f, hf, rfl⟩ := List.mem_map.mp hx
  obtain ⟨hf, hp⟩ := List.mem_filter.mp hf
  simp only [Bool.and_eq_true, beq_iff_eq] at hp
  exact ⟨hm, hf, hp.1, hp.2⟩

/-- **C29.** With signal levels within ±`B` dB a weight is never smaller than `1/√(4B+100)`. -/
theorem C29_lower_bound (fps : List Fingerprint) (msr : List RadioData) (d : Bool) (rp : String) (B w : ℝ)
    (hB : 0 ≤ B) (hb : Bounded B fps msr) (hw : StdMap.find? (calcRpWeightsKnn fps msr d) rp = some w) :
    1 / Real.sqrt (4 * B + 100) ≤ w := by
  obtain ⟨h1, h2⟩ := C29_weights fps msr d rp
  have hlen : 3 ≤ (matched fps msr rp).length := h1.mp (by rw [hw]; rfl)
  rw [(h2 w hw).2]
  have hsh : ∀ x ∈ matched fps msr rp, 0 < share msr x.m.id := fun x hx => share_pos msr _ ⟨x.m, (mem_matched hx).1, rfl⟩
  have hbnd : ∀ x ∈ matched fps msr rp, |x.f.stat.mean| ≤ B ∧ |x.m.rssi| ≤ B :=
    fun x hx => ⟨hb.1 _ (mem_matched hx).2.1, hb.2 _ (mem_matched hx).1⟩
  cases d with
  | true =>
    rw [if_pos rfl]
    unfold diffWeight
    simp only
    refine combine_ge _ _ _ (4 * B) (laterEarlier (matched fps msr rp)).length hlen (laterEarlier_length _) (by linarith) ?_ ?_ ?_
    · refine lt_of_lt_of_le (by norm_num : (0 : ℝ) < 1 / 1000000) (sum_ge_of_mem _ _ (by norm_num) ?_ ?_)
      · intro x hx
        obtain ⟨p, -, rfl⟩ := List.mem_map.mp hx
        exact le_max_right _ _
      · simpa using laterEarlier_ne_nil _ (by omega)
    · apply List.sum_nonneg
      intro x hx
      obtain ⟨p, hp, rfl⟩ := List.mem_map.mp hx
      obtain ⟨hp1, hp2⟩ := mem_laterEarlier _ _ hp
      exact (mul_pos (hsh _ hp1) (hsh _ hp2)).le
    · apply sum_penalty_le _ (fun p : Match × Match => (p.1.f.stat.mean - p.2.f.stat.mean) - (p.1.m.rssi - p.2.m.rssi))
      · intro p hp
        obtain ⟨hp1, hp2⟩ := mem_laterEarlier _ _ hp
        exact (mul_pos (hsh _ hp1) (hsh _ hp2)).le
      · intro p hp
        obtain ⟨hp1, hp2⟩ := mem_laterEarlier _ _ hp
        obtain ⟨a1, a2⟩ := hbnd _ hp1
        obtain ⟨a3, a4⟩ := hbnd _ hp2
        rw [abs_le] at *
        constructor <;> linarith [a1.1, a1.2, a2.1, a2.2, a3.1, a3.2, a4.1, a4.2]
  | false =>
    rw [if_neg (by simp)]
    unfold absWeight
    simp only
    refine combine_ge _ _ _ (4 * B) (matched fps msr rp).length hlen (by nlinarith) (by linarith) ?_ ?_ ?_
    · refine lt_of_lt_of_le (by norm_num : (0 : ℝ) < 1 / 1000000) (sum_ge_of_mem _ _ (by norm_num) ?_ ?_)
      · intro x hx
        obtain ⟨p, -, rfl⟩ := List.mem_map.mp hx
        exact le_max_right _ _
      · intro h'; rw [List.map_eq_nil_iff] at h'; rw [h'] at hlen; simp at hlen
    · apply List.sum_nonneg
      intro x hx
      obtain ⟨p, hp, rfl⟩ := List.mem_map.mp hx
      exact (hsh _ hp).le
    · apply sum_penalty_le _ (fun p : Match => p.f.stat.mean + p.m.rssi)
      · intro p hp
        exact (hsh _ hp).le
      · intro p hp
        obtain ⟨a1, a2⟩ := hbnd _ hp
        rw [abs_le] at *
        constructor <;> linarith [a1.1, a1.2, a2.1, a2.2]

/-- **C75.** With signal levels within ±1000 dB and a triangle corner that has three matching
measurements, the position lies in a triangle of reference points of the level. -/
theorem C75_hull (s : Triang.Sorts) (hE : ∀ l, (s.edges l).Perm l) (hT : ∀ l, (s.triangles l).Perm l)
    (sort : List (String × ℝ) → List (String × ℝ)) (c : LevelCollector)
    (p : CommonSettings) (hp : p.useTriangles = true) (old : Position) (level : Level) (hl : level ∈ c.levels)
    (hwf : WellFormed level) (hd : DistinctLevels c) (ts : Int) (msr : List RadioData) (pos : Position)
    (hb : Bounded 1000 (levelRadiomap level) (usable c level.id msr))
    (hcorner : ∃ t ∈ levelTriangles s level, ∃ v ∈ t.corners,
      3 ≤ (matched (levelRadiomap level) (usable c level.id msr) v.id).length)
    (hok : calculatePosition (mkCfg s sort c p) old level ts msr = .ok (.OK, pos)) :
    ∃ a ∈ level.radiomap.referencePoints, ∃ b ∈ level.radiomap.referencePoints, ∃ d ∈ level.radiomap.referencePoints,
      InTriangle ⟨pos.x, pos.y⟩ a.point b.point d.point := by
  rcases C75_dichotomy s hE hT sort c p hp old level hl hwf hd ts msr pos hok with h | ⟨-, -, h⟩
  · exact h
  · exfalso
    obtain ⟨t, ht, v, hv, hm⟩ := hcorner
    have hlt := h t ht
    obtain ⟨w, hw⟩ := Option.isSome_iff_exists.mp
      ((C29_weights (levelRadiomap level) (usable c level.id msr) p.useDiffMode v.id).1.mpr hm)
    have hge := C29_lower_bound _ _ _ _ 1000 w (by norm_num) hb hw
    have hnn : ∀ id, 0 ≤ weightOf (calcRpWeightsKnn (levelRadiomap level) (usable c level.id msr) p.useDiffMode) id := by
      intro id
      unfold weightOf
      cases hf : StdMap.find? (calcRpWeightsKnn (levelRadiomap level) (usable c level.id msr) p.useDiffMode) id with
      | none => simp
      | some x => exact ((C29_weights _ _ _ _).2 _ hf).1.le
    have hvw : weightOf (calcRpWeightsKnn (levelRadiomap level) (usable c level.id msr) p.useDiffMode) v.id = w := by
      unfold weightOf; rw [hw]; rfl
    have hsum : w ≤ triangleWeight (calcRpWeightsKnn (levelRadiomap level) (usable c level.id msr) p.useDiffMode)
        ⟨t.a.id, t.b.id, t.c.id⟩ := by
      unfold triangleWeight
      simp only
      have h1 := hnn t.a.id
      have h2 := hnn t.b.id
      have h3 := hnn t.c.id
      simp only [Triang.Triangle.corners, List.mem_cons, List.not_mem_nil, or_false] at hv
      rcases hv with rfl | rfl | rfl <;> linarith
    have hs : Real.sqrt (4 * 1000 + 100) ≤ 100 := Real.sqrt_le_iff.mpr ⟨by norm_num, by norm_num⟩
    have hs0 : 0 < Real.sqrt (4 * 1000 + 100) := Real.sqrt_pos.mpr (by norm_num)
    have : (1 : ℝ) / 100 ≤ 1 / Real.sqrt (4 * 1000 + 100) := one_div_le_one_div_of_le hs0 hs
    have heps : doubleEpsilon < 1 / 100 := by unfold doubleEpsilon; norm_num
    linarith

/-- **C75 (finding).** When no corner of a triangle has three matching measurements, every OK answer in
triangle mode is the origin. Together with `C75_hull` this settles every OK answer. -/
theorem C75_origin (s : Triang.Sorts)
    (sort : List (String × ℝ) → List (String × ℝ)) (c : LevelCollector)
    (p : CommonSettings) (hp : p.useTriangles = true) (old : Position) (level : Level) (hl : level ∈ c.levels)
    (hd : DistinctLevels c) (ts : Int) (msr : List RadioData) (pos : Position)
    (hfew : ∀ t ∈ levelTriangles s level, ∀ v ∈ t.corners,
      (matched (levelRadiomap level) (usable c level.id msr) v.id).length < 3)
    (hok : calculatePosition (mkCfg s sort c p) old level ts msr = .ok (.OK, pos)) :
    pos.x = 0 ∧ pos.y = 0 := by
  obtain ⟨q, hne, hx, hy, hq⟩ := triangle_mode s sort c p hp old level hl hd ts msr pos hok
  have hz : ∀ id, (matched (levelRadiomap level) (usable c level.id msr) id).length < 3 →
      weightOf (calcRpWeightsKnn (levelRadiomap level) (usable c level.id msr) p.useDiffMode) id = 0 := by
    intro id hid
    unfold weightOf
    rw [rpWeights_find, if_pos hid]
    rfl
  have : q = ⟨0, 0⟩ := by
    cases hm : maxElement (calcRpWeightsKnn (levelRadiomap level) (usable c level.id msr) p.useDiffMode)
        ((levelTriangles s level).map (fun t => (⟨t.a.id, t.b.id, t.c.id⟩ : RpTriangle))) with
    | none => unfold calcPositionInTriangle at hq; rw [hm] at hq; simp at hq
    | some t =>
      obtain ⟨bef, aft, hsplit, -, -⟩ := maxElement_spec _ _ _ hm
      have hmem : t ∈ (levelTriangles s level).map (fun t => (⟨t.a.id, t.b.id, t.c.id⟩ : RpTriangle)) := by
        rw [hsplit]; simp
      obtain ⟨t', ht', rfl⟩ := List.mem_map.mp hmem
      have h1 := hz _ (hfew t' ht' t'.a (by simp [Triang.Triangle.corners]))
      have h2 := hz _ (hfew t' ht' t'.b (by simp [Triang.Triangle.corners]))
      have h3 := hz _ (hfew t' ht' t'.c (by simp [Triang.Triangle.corners]))
      unfold calcPositionInTriangle at hq
      rw [hm] at hq
      have heps : 0 < doubleEpsilon := by unfold doubleEpsilon; norm_num
      simp only [h1, h2, h3, add_zero, heps, if_true, Result.ok.injEq] at hq
      exact hq.symm
  rw [hx, hy, this]
  exact ⟨rfl, rfl⟩

/-! ### A concrete level -/

theorem triangulateFrom_absent (s : Triang.Sorts) (ls : List Level) (m : List (String × List RpTriangle)) (id : String)
    (h : ∀ l ∈ ls, l.id ≠ id) : StdMap.find? (triangulateFrom s ls m) id = StdMap.find? m id := by
  induction ls generalizing m with
  | nil => rfl
  | cons l ls ih =>
    have hl := h l (by simp)
    have ih := fun m => ih m (fun l hl => h l (List.mem_cons_of_mem _ hl))
    unfold triangulateFrom
    simp only
    split_ifs
    · rfl
    · rw [ih, StdMap.find?_insert]; simp [hl]
    · exact ih m

/-- **C75.** Which levels the estimator can answer for in triangle mode, and with which triangles: a
level has triangles iff it has more than three reference points, some triangle of these has sides no
longer than the longer side of the level's bounding box, and the same holds of every earlier level with
more than three reference points. -/
theorem C75_triangulated (s : Triang.Sorts) (c : LevelCollector) (hd : DistinctLevels c) (before after : List Level)
    (level : Level) (hc : c.levels = before ++ level :: after) :
    open Classical in
    StdMap.find? (triangulate s c) level.id =
      if 3 < level.radiomap.referencePoints.length ∧
          ∀ l ∈ before ++ [level], 3 < l.radiomap.referencePoints.length → levelTriangles s l ≠ [] then
        some ((levelTriangles s level).map (fun t => ⟨t.a.id, t.b.id, t.c.id⟩))
      else none := by
  classical
  unfold triangulate
  unfold DistinctLevels at hd
  rw [hc] at hd ⊢
  have hafter : ∀ l ∈ after, l.id ≠ level.id := by
    rw [List.pairwise_append] at hd
    intro l hl h
    exact (List.pairwise_cons.mp hd.2.1).1 l hl h.symm
  have hbefore : ∀ l ∈ before, l.id ≠ level.id := by
    rw [List.pairwise_append] at hd
    intro l hl
    exact hd.2.2 l hl level (by simp)
  have main : ∀ (before : List Level) (m : List (String × List RpTriangle)), (∀ l ∈ before, l.id ≠ level.id) →
      StdMap.find? m level.id = none →
      StdMap.find? (triangulateFrom s (before ++ level :: after) m) level.id =
      if 3 < level.radiomap.referencePoints.length ∧
          ∀ l ∈ before ++ [level], 3 < l.radiomap.referencePoints.length → levelTriangles s l ≠ [] then
        some ((levelTriangles s level).map (fun t => ⟨t.a.id, t.b.id, t.c.id⟩))
      else none := by
    intro before
    induction before with
    | nil =>
      intro m _ hm
      rw [List.nil_append]
      unfold triangulateFrom
      simp only [List.nil_append, List.mem_singleton, forall_eq]
      have hlt : Triang.triangulateVertices s (level.radiomap.referencePoints.map (fun rp => ⟨rp.point.x, rp.point.y, rp.id⟩))
          (maxEdge level.geometry.boundingBox) = levelTriangles s level := rfl
      rw [hlt]
      by_cases h3 : 3 < level.radiomap.referencePoints.length
      · rw [if_pos h3]
        by_cases h0 : levelTriangles s level = []
        · simp [h0, hm]
        · have : (levelTriangles s level).isEmpty = false := by cases h : levelTriangles s level <;> simp_all
          rw [this, if_neg (by simp), triangulateFrom_absent s after _ _ hafter, StdMap.find?_insert]
          simp [hm, h3, h0]
      · rw [if_neg h3, triangulateFrom_absent s after _ _ hafter, hm, if_neg (fun h => h3 h.1)]
    | cons l ls ih =>
      intro m hb hm
      have hl := hb l (by simp)
      have ih := fun m hm => ih m (fun l hl => hb l (List.mem_cons_of_mem _ hl)) hm
      rw [List.cons_append]
      unfold triangulateFrom
      simp only
      have hlt : Triang.triangulateVertices s (l.radiomap.referencePoints.map (fun rp => ⟨rp.point.x, rp.point.y, rp.id⟩))
          (maxEdge l.geometry.boundingBox) = levelTriangles s l := rfl
      rw [hlt]
      by_cases h3 : 3 < l.radiomap.referencePoints.length
      · rw [if_pos h3]
        by_cases h0 : levelTriangles s l = []
        · rw [h0]
          simp only [List.isEmpty_nil, if_true]
          rw [hm, if_neg]
          intro h
          exact h.2 l (by simp) h3 h0
        · have : (levelTriangles s l).isEmpty = false := by cases h : levelTriangles s l <;> simp_all
          rw [this, if_neg (by simp), ih _ (by rw [StdMap.find?_insert]; simp [hl, hm])]
          congr 1
          apply propext
          constructor
          · rintro ⟨h1, h2⟩
            refine ⟨h1, fun l' hl' => ?_⟩
            rcases List.mem_cons.mp hl' with rfl | hl'
            · exact fun _ => h0
            · exact h2 l' hl'
          · rintro ⟨h1, h2⟩
            exact ⟨h1, fun l' hl' => h2 l' (List.mem_cons_of_mem _ hl')⟩
      · rw [if_neg h3, ih m hm]
        congr 1
        apply propext
        constructor
        · rintro ⟨h1, h2⟩
          refine ⟨h1, fun l' hl' => ?_⟩
          rcases List.mem_cons.mp hl' with rfl | hl'
          · exact fun h => absurd h h3
          · exact h2 l' hl'
        · rintro ⟨h1, h2⟩
          exact ⟨h1, fun l' hl' => h2 l' (List.mem_cons_of_mem _ hl')⟩
  exact main before [] hbefore rfl

/-- The triangles the estimator uses have their corners at reference points and no side longer than
the longer side of the level's bounding box. -/
theorem C75_sides (s : Triang.Sorts) (hE : ∀ l, (s.edges l).Perm l) (hT : ∀ l, (s.triangles l).Perm l) (l : Level)
    (t : Triang.Triangle) (ht : t ∈ levelTriangles s l) (u v : Triang.Vertex) (hu : u ∈ t.corners) (hv : v ∈ t.corners) :
    (∃ rp ∈ l.radiomap.referencePoints, u = ⟨rp.point.x, rp.point.y, rp.id⟩) ∧
    Triang.vdist u v ≤ longerSide l.geometry.boundingBox := by
  obtain ⟨-, h⟩ := Triang.C48_output s hE hT
    (l.radiomap.referencePoints.map (fun rp => ⟨rp.point.x, rp.point.y, rp.id⟩)) (longerSide l.geometry.boundingBox)
  obtain ⟨hc, hab, hbc, hac, -⟩ := h t ht
  constructor
  · have := (hc u hu).1
    rw [List.mem_map] at this
    obtain ⟨rp, hrp, h⟩ := this
    exact ⟨rp, hrp, h.symm⟩
  · have symm : ∀ a b, Triang.vdist a b = Triang.vdist b a := by
      intro a b; unfold Triang.vdist; congr 1; ring
    have self : ∀ a, Triang.vdist a a = 0 := by
      intro a; unfold Triang.vdist; simp
    have hnn : 0 ≤ longerSide l.geometry.boundingBox := le_trans (Real.sqrt_nonneg _) hab
    simp only [Triang.Triangle.corners, List.mem_cons, List.not_mem_nil, or_false] at hu hv
    rcases hu with rfl | rfl | rfl <;> rcases hv with rfl | rfl | rfl <;> first
      | assumption
      | (rw [self]; exact hnn)
      | (rw [symm]; assumption)

/-- A level whose reference points are the corners of its square bounding box. -/
noncomputable def squareLevel (id : String) (a : ℝ) (i j k n : String) : Level :=
  ⟨id, ⟨0, 0⟩, [], mkRadiomap [⟨i, ⟨0, 0⟩, []⟩, ⟨j, ⟨a, 0⟩, []⟩, ⟨k, ⟨a, a⟩, []⟩, ⟨n, ⟨0, a⟩, []⟩],
    ⟨[], ⟨⟨0, 0⟩, ⟨a, a⟩⟩, []⟩, ⟨[], []⟩⟩

/-- **C75 (finding).** Four reference points in the corners of a square level give no triangle, as
every triangle has a diagonal as a side, and then neither this level nor any later one can be answered
for in triangle mode, whatever reference points the later ones have. -/
theorem C75_square (s : Triang.Sorts) (hE : ∀ l, (s.edges l).Perm l) (hT : ∀ l, (s.triangles l).Perm l)
    (a : ℝ) (ha : 0 < a) (id i j k n : String) (c : LevelCollector) (hd : DistinctLevels c)
    (before after : List Level) (hc : c.levels = before ++ squareLevel id a i j k n :: after) :
    levelTriangles s (squareLevel id a i j k n) = [] ∧
    ∀ level ∈ squareLevel id a i j k n :: after, StdMap.find? (triangulate s c) level.id = none := by
  have hrps : (squareLevel id a i j k n).radiomap.referencePoints =
      [⟨i, ⟨0, 0⟩, []⟩, ⟨j, ⟨a, 0⟩, []⟩, ⟨k, ⟨a, a⟩, []⟩, ⟨n, ⟨0, a⟩, []⟩] := rfl
  have h0 : levelTriangles s (squareLevel id a i j k n) = [] := by
    rw [List.eq_nil_iff_forall_not_mem]
    intro t ht
    obtain ⟨-, p1, p2, p3⟩ := Triang.C48_corners s hE hT _ _ t ht
    have hs : ∀ u v : Triang.Vertex, u ∈ t.corners → v ∈ t.corners → (u.x - v.x) ^ 2 + (u.y - v.y) ^ 2 ≤ a ^ 2 := by
      intro u v hu hv
      have := (C75_sides s hE hT _ t ht u v hu hv).2
      have hl : longerSide (squareLevel id a i j k n).geometry.boundingBox = a := by
        simp [longerSide, squareLevel]
      rw [hl] at this
      unfold Triang.vdist at this
      exact (Real.sqrt_le_left ha.le).mp this
    have hp : ∀ u ∈ t.corners, (u.x = 0 ∨ u.x = a) ∧ (u.y = 0 ∨ u.y = a) := by
      intro u hu
      obtain ⟨rp, hrp, rfl⟩ := (C75_sides s hE hT _ t ht u u hu hu).1
      rw [hrps] at hrp
      simp only [List.mem_cons, List.not_mem_nil, or_false] at hrp
      rcases hrp with rfl | rfl | rfl | rfl <;> simp
    have ma : t.a ∈ t.corners := by simp [Triang.Triangle.corners]
    have mb : t.b ∈ t.corners := by simp [Triang.Triangle.corners]
    have mc : t.c ∈ t.corners := by simp [Triang.Triangle.corners]
    have h1 := hs _ _ ma mb
    have h2 := hs _ _ mb mc
    have h3 := hs _ _ ma mc
    unfold Triang.vdist at p1 p2 p3
    rw [Real.sqrt_pos] at p1 p2 p3
    obtain ⟨ax, ay⟩ := hp _ ma
    obtain ⟨bx, bY⟩ := hp _ mb
    obtain ⟨cx, cy⟩ := hp _ mc
    have ha2 : 0 < a ^ 2 := by positivity
    rcases ax with ax | ax <;> rcases ay with ay | ay <;> rcases bx with bx | bx <;> rcases bY with bY | bY <;>
      rcases cx with cx | cx <;> rcases cy with cy | cy <;>
      simp only [ax, ay, bx, bY, cx, cy] at h1 h2 h3 p1 p2 p3 <;> ring_nf at h1 h2 h3 p1 p2 p3 <;> linarith
  refine ⟨h0, fun level hlevel => ?_⟩
  have h4 : 3 < (squareLevel id a i j k n).radiomap.referencePoints.length := by rw [hrps]; simp
  rcases List.mem_cons.mp hlevel with rfl | hlevel
  · rw [C75_triangulated s c hd before after _ hc, if_neg]
    rintro ⟨-, h⟩
    exact h _ (by simp) h4 h0
  · obtain ⟨p, q, rfl⟩ := List.append_of_mem hlevel
    rw [C75_triangulated s c hd (before ++ squareLevel id a i j k n :: p) q level (by rw [hc]; simp), if_neg]
    rintro ⟨-, h⟩
    exact h _ (by simp) h4 h0

namespace Witness

/-- One fingerprint. -/
noncomputable def st : SignalStatistics := ⟨.BEACON, 70, 0, 1⟩

/-- Four reference points, each hearing a transmitter of its own. -/
noncomputable def rps : List (ReferencePoint XYPoint) :=
  [⟨"a", ⟨100, 100⟩, [("t1", st)]⟩, ⟨"b", ⟨104, 100⟩, [("t2", st)]⟩,
   ⟨"c", ⟨100, 104⟩, [("t3", st)]⟩, ⟨"d", ⟨104, 105⟩, [("t4", st)]⟩]

/-- The level. -/
noncomputable def lvl : Level :=
  ⟨"L", ⟨0, 0⟩, [], mkRadiomap rps, ⟨[], ⟨⟨100, 100⟩, ⟨106, 106⟩⟩, []⟩, ⟨[], []⟩⟩

/-- Its collector. -/
noncomputable def col : LevelCollector := addLevel emptyCollector lvl

/-- One measurement per transmitter. -/
noncomputable def msr : List RadioData :=
  [⟨.BEACON, "t1", -70, 0, 0, 0⟩, ⟨.BEACON, "t2", -70, 0, 0, 0⟩, ⟨.BEACON, "t3", -70, 0, 0, 0⟩, ⟨.BEACON, "t4", -70, 0, 0, 0⟩]

theorem levels : col.levels = [lvl] := rfl

theorem triangles (s : Triang.Sorts) (hE : StdSort Triang.Edge.lt s.edges) (hT : ∀ l, (s.triangles l).Perm l) :
    levelTriangles s lvl ≠ [] := by
  have h := Triang.Example.triangulation s hE hT
  have he : levelTriangles s lvl = Triang.triangulateVertices s [Triang.Example.pa, Triang.Example.pb, Triang.Example.pc, Triang.Example.pd] 6 := by
    unfold levelTriangles
    have h6 : longerSide lvl.geometry.boundingBox = 6 := by simp [longerSide, lvl]; norm_num
    rw [h6]
    rfl
  rw [he]
  intro h0
  rw [h0] at h
  simp at h

end Witness

open Witness in
/-- **C75 (finding).** A level with four reference points all at `x ≥ 100`, four measurements of its
transmitters: the estimator answers OK with the origin, which lies in no triangle of reference points. -/
theorem C75_origin_witness (s : Triang.Sorts) (hE : StdSort Triang.Edge.lt s.edges) (hT : ∀ l, (s.triangles l).Perm l)
    (sort : List (String × ℝ) → List (String × ℝ)) (p : CommonSettings) (hp : p.useTriangles = true)
    (hmin : p.minNumOfMeasurementsForPositionCalculation ≤ 4) (old : Position) (ts : Int) :
    ∃ pos, calculatePosition (mkCfg s sort col p) old lvl ts msr = .ok (.OK, pos) ∧ pos.x = 0 ∧ pos.y = 0 ∧
      ∀ a ∈ lvl.radiomap.referencePoints, ∀ b ∈ lvl.radiomap.referencePoints, ∀ d ∈ lvl.radiomap.referencePoints,
        ¬ InTriangle ⟨pos.x, pos.y⟩ a.point b.point d.point := by
  have hl : lvl ∈ col.levels := by rw [levels]; simp
  have hd : DistinctLevels col := by unfold DistinctLevels; rw [levels]; simp
  have hfp : ∀ tx, HasFingerprint col "L" tx ↔ tx = "t1" ∨ tx = "t2" ∨ tx = "t3" ∨ tx = "t4" := by
    intro tx
    unfold HasFingerprint
    rw [levels]
    simp only [List.mem_singleton, exists_eq_left]
    simp only [lvl, mkRadiomap, rps, List.mem_cons, List.not_mem_nil, or_false, true_and, exists_eq_or_imp, exists_eq_left]
    simp only [eq_comm]
  have hus : usable col lvl.id msr = msr := by
    unfold usable
    rw [List.filter_eq_self]
    intro m hm
    simp only [msr, List.mem_cons, List.not_mem_nil, or_false] at hm
    have : HasFingerprint col lvl.id m.id := by
      show HasFingerprint col "L" m.id
      rw [hfp]
      rcases hm with rfl | rfl | rfl | rfl <;> simp
    simp [this]
  have htri : (StdMap.find? (triangulate s col) lvl.id).isSome := by
    have hne := triangles s hE hT
    have : triangulate s col = StdMap.insert [] "L" ((levelTriangles s lvl).map (fun t => ⟨t.a.id, t.b.id, t.c.id⟩)) := by
      unfold triangulate
      rw [levels]
      unfold triangulateFrom
      simp only
      rw [if_pos (by simp [lvl, mkRadiomap, rps])]
      rw [if_neg (by simpa [levelTriangles, longerSide, maxEdge] using hne)]
      rfl
    rw [this, StdMap.find?_insert]
    simp [lvl]
  obtain ⟨x, y, hok⟩ := (C32_status s sort col p old lvl hl rfl ts msr).2.2 (by simp [msr]) ⟨"t1", (hfp _).mpr (.inl rfl)⟩
    |>.2.2 (by rw [hus]; simpa [msr] using hmin) (fun _ => htri)
  have hfew : ∀ rp, (matched (levelRadiomap lvl) (usable col lvl.id msr) rp).length < 3 := by
    intro rp
    rw [hus]
    have hr : levelRadiomap lvl = [⟨"t1", "a", st⟩, ⟨"t2", "b", st⟩, ⟨"t3", "c", st⟩, ⟨"t4", "d", st⟩] := rfl
    rw [hr]
    unfold matched msr
    by_cases h1 : "a" = rp
    · subst h1; simp
    · by_cases h2 : "b" = rp
      · subst h2; simp
      · by_cases h3 : "c" = rp
        · subst h3; simp
        · by_cases h4 : "d" = rp
          · subst h4; simp
          · simp [h1, h2, h3, h4]
  obtain ⟨hx, hy⟩ := C75_origin s sort col p hp old lvl hl hd ts msr _ (fun _ _ v _ => hfew v.id) hok
  refine ⟨_, hok, hx, hy, ?_⟩
  have hge : ∀ a ∈ lvl.radiomap.referencePoints, 100 ≤ a.point.x := by
    intro a ha
    simp only [lvl, mkRadiomap, rps, List.mem_cons, List.not_mem_nil, or_false] at ha
    rcases ha with rfl | rfl | rfl | rfl <;> norm_num
  rintro a ha b hb d hd' ⟨u, v, w, hu, hv, hw, hs, h, -⟩
  rw [hx] at h
  have h1 := mul_le_mul_of_nonneg_left (hge a ha) hu
  have h2 := mul_le_mul_of_nonneg_left (hge b hb) hv
  have h3 := mul_le_mul_of_nonneg_left (hge d hd') hw
  simp only at h
  linarith

namespace Witness2

open Witness (st)

/-- Three fingerprints. -/
noncomputable def fp : List (String × SignalStatistics) := [("t1", st), ("t2", st), ("t3", st)]

/-- Four reference points hearing the same three transmitters. -/
noncomputable def rps : List (ReferencePoint XYPoint) :=
  [⟨"a", ⟨100, 100⟩, fp⟩, ⟨"b", ⟨104, 100⟩, fp⟩, ⟨"c", ⟨100, 104⟩, fp⟩, ⟨"d", ⟨104, 105⟩, fp⟩]

/-- The level. -/
noncomputable def lvl : Level :=
  ⟨"L", ⟨0, 0⟩, [], mkRadiomap rps, ⟨[], ⟨⟨100, 100⟩, ⟨106, 106⟩⟩, []⟩, ⟨[], []⟩⟩

/-- Its collector. -/
noncomputable def col : LevelCollector := addLevel emptyCollector lvl

/-- One measurement per transmitter. -/
noncomputable def msr : List RadioData :=
  [⟨.BEACON, "t1", -70, 0, 0, 0⟩, ⟨.BEACON, "t2", -60, 0, 0, 0⟩, ⟨.BEACON, "t3", -80, 0, 0, 0⟩]

end Witness2

open Witness2 in
/-- The hypotheses of C75 are met: this level answers OK inside a triangle of its reference points. -/
theorem C75_example (s : Triang.Sorts) (hE : StdSort Triang.Edge.lt s.edges) (hT : ∀ l, (s.triangles l).Perm l)
    (sort : List (String × ℝ) → List (String × ℝ)) (p : CommonSettings) (hp : p.useTriangles = true)
    (hmin : p.minNumOfMeasurementsForPositionCalculation ≤ 3) (old : Position) (ts : Int) :
    ∃ pos, calculatePosition (mkCfg s sort col p) old lvl ts msr = .ok (.OK, pos) ∧
      ∃ a ∈ lvl.radiomap.referencePoints, ∃ b ∈ lvl.radiomap.referencePoints, ∃ d ∈ lvl.radiomap.referencePoints,
        InTriangle ⟨pos.x, pos.y⟩ a.point b.point d.point := by
  have hlev : col.levels = [lvl] := rfl
  have hl : lvl ∈ col.levels := by rw [hlev]; simp
  have hd : DistinctLevels col := by unfold DistinctLevels; rw [hlev]; simp
  have hfp : ∀ tx, tx = "t1" ∨ tx = "t2" ∨ tx = "t3" → HasFingerprint col "L" tx := by
    intro tx h
    refine ⟨lvl, hl, rfl, ⟨"a", ⟨100, 100⟩, fp⟩, by simp [lvl, mkRadiomap, rps], (tx, Witness.st), ?_, rfl⟩
    rcases h with rfl | rfl | rfl <;> simp [fp]
  have hus : usable col lvl.id msr = msr := by
    unfold usable
    rw [List.filter_eq_self]
    intro m hm
    simp only [msr, List.mem_cons, List.not_mem_nil, or_false] at hm
    have : HasFingerprint col lvl.id m.id := by
      apply hfp
      rcases hm with rfl | rfl | rfl <;> simp
    simp [this]
  have hmem : (⟨Triang.Example.pc, Triang.Example.pa, Triang.Example.pb⟩ : Triang.Triangle) ∈ levelTriangles s lvl := by
    have h := Triang.Example.triangulation s hE hT
    have h6 : longerSide lvl.geometry.boundingBox = 6 := by simp [longerSide, lvl]; norm_num
    unfold levelTriangles
    rw [h6]
    exact h
  have hne : levelTriangles s lvl ≠ [] := List.ne_nil_of_mem hmem
  have htri : (StdMap.find? (triangulate s col) lvl.id).isSome := by
    have : triangulate s col = StdMap.insert [] "L" ((levelTriangles s lvl).map (fun t => ⟨t.a.id, t.b.id, t.c.id⟩)) := by
      unfold triangulate
      rw [hlev]
      unfold triangulateFrom
      simp only
      rw [if_pos (by simp [lvl, mkRadiomap, rps])]
      rw [if_neg (by simpa [levelTriangles, longerSide, maxEdge] using hne)]
      rfl
    rw [this, StdMap.find?_insert]
    simp [lvl]
  obtain ⟨x, y, hok⟩ := (C32_status s sort col p old lvl hl rfl ts msr).2.2 (by simp [msr]) ⟨"t1", hfp _ (.inl rfl)⟩
    |>.2.2 (by rw [hus]; simpa [msr] using hmin) (fun _ => htri)
  refine ⟨_, hok, C75_hull s hE.perm hT sort col p hp old lvl hl rfl hd ts msr _ ?_ ?_ hok⟩
  · rw [hus]
    constructor
    · intro f hf
      have : f.stat = Witness.st := by
        simp only [levelRadiomap, lvl, mkRadiomap, rps, fp, List.mem_flatMap, List.mem_cons, List.not_mem_nil, or_false] at hf
        obtain ⟨rp, hrp, hf⟩ := hf
        rcases hrp with rfl | rfl | rfl | rfl <;> simp at hf <;> rcases hf with rfl | rfl | rfl <;> rfl
      rw [this]
      simp only [Witness.st]
      norm_num
    · intro m hm
      simp only [msr, List.mem_cons, List.not_mem_nil, or_false] at hm
      rcases hm with rfl | rfl | rfl <;> norm_num
  · refine ⟨_, hmem, Triang.Example.pa, by simp [Triang.Triangle.corners], ?_⟩
    rw [hus]
    have hr : levelRadiomap lvl = [⟨"t1", "a", Witness.st⟩, ⟨"t2", "a", Witness.st⟩, ⟨"t3", "a", Witness.st⟩,
      ⟨"t1", "b", Witness.st⟩, ⟨"t2", "b", Witness.st⟩, ⟨"t3", "b", Witness.st⟩,
      ⟨"t1", "c", Witness.st⟩, ⟨"t2", "c", Witness.st⟩, ⟨"t3", "c", Witness.st⟩,
      ⟨"t1", "d", Witness.st⟩, ⟨"t2", "d", Witness.st⟩, ⟨"t3", "d", Witness.st⟩] := rfl
    rw [hr]
    simp [matched, msr, Triang.Example.pa]

/-- C28 is not vacuous: with one measurement of a known transmitter the level is found. -/
example : detectByRadiomap false (getLevelsRadiomaps Witness2.col) Witness2.col [⟨.BEACON, "t1", -70, 0, 0, 0⟩] = some "L" := by
  obtain ⟨r, h, hr⟩ := C28_level false Witness2.col [⟨.BEACON, "t1", -70, 0, 0, 0⟩]
  rw [h]
  have hlev : Witness2.col.levels = [Witness2.lvl] := rfl
  cases r with
  | none =>
    exfalso
    have h1 := (C28_empty_iff Witness2.col [⟨.BEACON, "t1", -70, 0, 0, 0⟩] (by rw [hlev]; simp [Witness2.lvl])).mp h
    refine h1 Witness2.lvl (by rw [hlev]; simp) _ List.mem_cons_self ⟨"t1", "a", Witness.st⟩ ?_ rfl
    rw [fingerprintsOf_eq (by unfold DistinctLevels; rw [hlev]; simp) (by rw [hlev]; simp)]
    simp [levelRadiomap, Witness2.lvl, mkRadiomap, Witness2.rps, Witness2.fp]
  | some l =>
    obtain ⟨before, after, hl, -⟩ := hr
    have : l ∈ Witness2.col.levels := by rw [hl]; simp
    rw [hlev, List.mem_singleton] at this
    rw [this]
    rfl

end Verif.Knn
