import Verif.Trilat.Props

/-!
# C51: the answered altitude is not the altitude
-/

namespace Verif.Trilat

open Verif.Levels

/-- Sorting by distance. -/
noncomputable def byDistance : List RadioData → List RadioData :=
  List.insertionSort (fun a b => a.distance ≤ b.distance)

theorem byDistance_sorts : SortsBy (fun a b : RadioData => a.distance < b.distance) byDistance :=
  sortsBy_insertionSort RadioData.distance

/-- The true distances from the origin to the four beacons of the example. -/
noncomputable def exact : List RadioData := [measured "a" 3, measured "b" 5, measured "c" 5, measured "d" 5]

theorem sqrt_of_mul (x y : ℝ) (h : x = y * y) (hy : 0 ≤ y) : Real.sqrt x = y := by
  rw [h]; exact Real.sqrt_mul_self hy

theorem cPow_neg_two : cPow (-4) 2 = some 16 := by
  unfold cPow
  rw [if_neg (by norm_num), if_neg (by norm_num)]
  have h : ∃ n : ℤ, (2 : ℝ) = n := ⟨2, by norm_num⟩
  rw [dif_pos h]
  have : h.choose = 2 := by
    have := h.choose_spec
    exact_mod_cast this.symm
  rw [this]
  norm_num

theorem cPow_zero (e : ℝ) (h : 0 < e) : cPow 0 e = some 0 := by
  unfold cPow
  rw [if_neg (lt_irrefl _), if_pos rfl, if_pos h]

theorem cPow_zero_neg (e : ℝ) (h : e < 0) : cPow 0 e = none := by
  unfold cPow
  rw [if_neg (lt_irrefl _), if_pos rfl, if_neg (by linarith), if_neg (by linarith)]

theorem true_distances : dist3 ⟨0, 0, 0⟩ ⟨0, 0, 3⟩ = 3 ∧ dist3 ⟨0, 0, 0⟩ ⟨4, 0, 3⟩ = 5 ∧
    dist3 ⟨0, 0, 0⟩ ⟨0, 4, 3⟩ = 5 ∧ dist3 ⟨0, 0, 0⟩ ⟨0, 0, 5⟩ = 5 := by
  refine ⟨?_, ?_, ?_, ?_⟩ <;> exact sqrt_of_mul _ _ (by norm_num) (by norm_num)

theorem exact_all_meet : ∀ a ∈ exact, ∀ b ∈ exact, Meet exampleLevel a b := by
  have tri : ∀ p q : XYZPoint, dist3 p q ≤ dist3 ⟨0, 0, 0⟩ p + dist3 ⟨0, 0, 0⟩ q := by
    intro p q
    unfold dist3
    have e : Real.sqrt ((p.x - q.x) ^ 2 + (p.y - q.y) ^ 2 + (p.z - q.z) ^ 2) =
        ‖(WithLp.toLp 2 ![p.x, p.y, p.z] : EuclideanSpace ℝ (Fin 3)) - WithLp.toLp 2 ![q.x, q.y, q.z]‖ := by
      rw [EuclideanSpace.norm_eq]; simp [Fin.sum_univ_three]
    have f : ∀ p : XYZPoint, Real.sqrt ((0 - p.x) ^ 2 + (0 - p.y) ^ 2 + (0 - p.z) ^ 2) =
        ‖(WithLp.toLp 2 ![p.x, p.y, p.z] : EuclideanSpace ℝ (Fin 3))‖ := by
      intro p
      rw [EuclideanSpace.norm_eq]; simp [Fin.sum_univ_three]
    rw [e, f, f]
    exact norm_sub_le _ _
  have key : ∀ m ∈ exact, ∃ t, exampleLevel.transmitter m.id = some t ∧ dist3 ⟨0, 0, 0⟩ t.point = m.distance := by
    obtain ⟨h1, h2, h3, h4⟩ := true_distances
    intro m hm
    simp only [exact, List.mem_cons, List.not_mem_nil, or_false] at hm
    rcases hm with rfl | rfl | rfl | rfl
    · exact ⟨_, rfl, h1⟩
    · exact ⟨_, rfl, h2⟩
    · exact ⟨_, rfl, h3⟩
    · exact ⟨_, rfl, h4⟩
  intro a ha b hb
  obtain ⟨t1, h1, h1'⟩ := key a ha
  obtain ⟨t2, h2, h2'⟩ := key b hb
  exact ⟨t1, t2, h1, h2, by rw [← h1', ← h2']; exact tri _ _⟩

theorem exact_sorted : byDistance exact = exact := by
  have : Std.Total (fun a b : RadioData => a.distance ≤ b.distance) := ⟨fun a b => le_total _ _⟩
  have : IsTrans RadioData (fun a b : RadioData => a.distance ≤ b.distance) := ⟨fun a b c => le_trans⟩
  apply List.Pairwise.insertionSort_eq
  norm_num [exact, measured]

theorem exact_intersected : getIntersected byDistance exampleLevel exact = some exact := by
  have hk : ∀ m ∈ exact, ∃ t, exampleLevel.transmitter m.id = some t := by
    intro m hm
    obtain ⟨t, -, h, -⟩ := exact_all_meet m hm m hm
    exact ⟨t, h⟩
  obtain ⟨res, h1, h2, -, -, -, h3⟩ := C50_intersect byDistance_sorts exampleLevel exact hk
  rw [exact_sorted] at h2
  rw [h1, Option.some.injEq]
  have hall : exact ⊆ res := by
    intro a ha
    by_contra hn
    obtain ⟨b, hb, a', ha', -, hm⟩ := h3 a ha hn
    exact hm (exact_all_meet b hb a' ha')
  have hnd : exact.Nodup := by
    apply List.Nodup.of_map RadioData.id
    simp [exact, measured]
  exact h2.eq_of_length_le (List.subperm_of_subset hnd hall).length_le

/-- **C51, the altitude is wrong.** With the exact distances from the origin, whose altitude is 0, to four
beacons that are not in one plane, the answer is 5.2 for every least squares solver: the vertical distance
uses a wrong exponent (misplaced parenthesis) and the weighted sum is not divided by the sum of weights. -/
theorem C51_altitude_wrong (solve : List Row → XYZPoint) (hls : LeastSquares solve) :
    calculateAltitude byDistance solve exampleLevel exact = some (.value (26 / 5)) := by
  have hlevel : getLevelRadioMeasurements RadioData.id exampleLevel exact = exact := by
    unfold getLevelRadioMeasurements
    rw [List.filter_eq_self]
    intro m hm
    obtain ⟨t, -, h, -⟩ := exact_all_meet m hm m hm
    unfold Level.containsTransmitter
    unfold Level.transmitter at h
    rw [h]; rfl
  obtain ⟨d1, d2, d3, d4⟩ := true_distances
  have hsol := C51_solution solve hls ⟨0, 0, 0⟩ ⟨0, 0, 3⟩ [⟨4, 0, 3⟩, ⟨0, 4, 3⟩, ⟨0, 0, 5⟩] (by
    intro v hv
    have a := hv ⟨4, 0, 3⟩ (by simp)
    have b := hv ⟨0, 4, 3⟩ (by simp)
    have c := hv ⟨0, 0, 5⟩ (by simp)
    norm_num at a b c
    cases v
    simp only at a b c
    simp [a, b, c])
  rw [d1, List.map_cons, List.map_cons, List.map_cons, List.map_nil, d2, d3, d4] at hsol
  have ta : txPoint exampleLevel "a" = some ⟨0, 0, 3⟩ := rfl
  have tb : txPoint exampleLevel "b" = some ⟨4, 0, 3⟩ := rfl
  have tc : txPoint exampleLevel "c" = some ⟨0, 4, 3⟩ := rfl
  have td : txPoint exampleLevel "d" = some ⟨0, 0, 5⟩ := rfl
  unfold calculateAltitude
  rw [hlevel, exact_intersected]
  dsimp only
  rw [if_neg (by simp [exact])]
  have hmap : ([measured "b" 5, measured "c" 5, measured "d" 5].mapM
      (fun m => (txPoint exampleLevel m.id).map (fun p => (p, m.distance)))) =
      some [(⟨4, 0, 3⟩, 5), (⟨0, 4, 3⟩, 5), (⟨0, 0, 5⟩, 5)] := rfl
  simp only [exact, hmap]
  have hta : txPoint exampleLevel (measured "a" 3).id = some ⟨0, 0, 3⟩ := rfl
  rw [hta]
  simp only [List.map_cons, List.map_nil]
  have hd3 : (measured "a" 3).distance = 3 := rfl
  rw [hd3, hsol]
  norm_num only
  have za : deltaZ 3 0 0 ⟨0, 0, 3⟩ = some 3 := by
    unfold deltaZ
    norm_num [cPow_zero]
    exact sqrt_of_mul _ _ (by norm_num) (by norm_num)
  have zb : deltaZ 5 0 0 ⟨4, 0, 3⟩ = some 3 := by
    unfold deltaZ
    norm_num [cPow_neg_two]
    exact sqrt_of_mul _ _ (by norm_num) (by norm_num)
  have zc : deltaZ 5 0 0 ⟨0, 4, 3⟩ = none := by
    unfold deltaZ
    norm_num [cPow_zero_neg]
  have zd : deltaZ 5 0 0 ⟨0, 0, 5⟩ = some 5 := by
    unfold deltaZ
    norm_num [cPow_zero]
    exact sqrt_of_mul _ _ (by norm_num) (by norm_num)
  have hsum : altitudeSum exampleLevel 0 0 [measured "a" 3, measured "b" 5, measured "c" 5, measured "d" 5]
      (some 0, true) = some (some (26 / 5), false) := by
    simp only [altitudeSum, measured, ta, tb, tc, td, za, zb, zc, zd]
    norm_num
  rw [hsum]

/-! ## What is answered -/

/-- The term a measurement adds to the answer when the position is `(x, y)`: the height of the transmitter plus the vertical
distance as the code computes it, divided by the measured distance. It has none if the vertical distance is not a number. -/
noncomputable def heightTerm (l : Level) (x y : ℝ) (m : RadioData) : Option ℝ :=
  (l.transmitter m.id).bind (fun tx => (deltaZ m.distance x y tx.point).map (fun dz => (tx.point.z + dz) / m.distance))

/-- The transmitters of the measurements are not in one plane. -/
def NotCoplanar (l : Level) (ms : List RadioData) : Prop :=
  ∀ (v : XYZPoint) (c : ℝ), (∀ m ∈ ms, ∀ tx, l.transmitter m.id = some tx →
    tx.point.x * v.x + tx.point.y * v.y + tx.point.z * v.z = c) → v = ⟨0, 0, 0⟩

/-- The distances are the true ones from the point `t` to transmitters of the level. -/
def TrueDistances (l : Level) (t : XYZPoint) (ms : List RadioData) : Prop :=
  ∀ m ∈ ms, ∃ tx, l.transmitter m.id = some tx ∧ m.distance = dist3 t tx.point

theorem dist3_triangle (t p q : XYZPoint) : dist3 p q ≤ dist3 t p + dist3 t q := by
  have e : ∀ p q : XYZPoint, dist3 p q =
      ‖(WithLp.toLp 2 ![p.x, p.y, p.z] : EuclideanSpace ℝ (Fin 3)) - WithLp.toLp 2 ![q.x, q.y, q.z]‖ := by
    intro p q
    unfold dist3
    rw [EuclideanSpace.norm_eq]; simp [Fin.sum_univ_three]
  rw [e, e, e, norm_sub_rev (WithLp.toLp 2 ![t.x, t.y, t.z]) (WithLp.toLp 2 ![p.x, p.y, p.z])]
  exact norm_sub_le_norm_sub_add_norm_sub _ _ _

theorem altitudeSum_eq (l : Level) (x y : ℝ) (ms : List RadioData) (hk : ∀ m ∈ ms, ∃ tx, l.transmitter m.id = some tx)
    (hd : ∀ m ∈ ms, m.distance ≠ 0) (acc : ℝ) (flag : Bool) :
    altitudeSum l x y ms (some acc, flag) =
      some (some (acc + (ms.filterMap (heightTerm l x y)).sum), flag && (ms.filterMap (heightTerm l x y)).isEmpty) := by
  induction ms generalizing acc flag with
  | nil => simp [altitudeSum]
  | cons m ms ih =>
    obtain ⟨tx, ht⟩ := hk m (by simp)
    have ih' := ih (fun m h => hk m (List.mem_cons_of_mem _ h)) (fun m h => hd m (List.mem_cons_of_mem _ h))
    have hp : txPoint l m.id = some tx.point := by simp [txPoint, ht]
    unfold altitudeSum
    rw [hp]
    dsimp only
    cases hz : deltaZ m.distance x y tx.point with
    | none =>
      have : heightTerm l x y m = none := by simp [heightTerm, ht, hz]
      rw [List.filterMap_cons_none this]
      exact ih' acc flag
    | some dz =>
      have : heightTerm l x y m = some ((tx.point.z + dz) / m.distance) := by simp [heightTerm, ht, hz]
      rw [List.filterMap_cons_some this]
      dsimp only
      rw [if_neg (hd m (by simp))]
      simp only [Option.map_some, List.sum_cons]
      rw [ih']
      simp only [Bool.false_and, List.isEmpty_cons, Bool.and_false]
      rw [add_assoc]

open Classical in
/-- **C51, the answer.** With the true distances from a point `t` to at least four transmitters that are not in one plane, one
measurement each, every least squares solver leads to the plan position of `t` itself. The answer then is the sum, over the
measurements for which the vertical distance is a number, of the transmitter's height plus that distance, divided by the
measured distance; there is no answer if it is a number for none of them. The sum is not a weighted mean, see
`C51_altitude_wrong`. -/
theorem C51_answer {sort : List RadioData → List RadioData}
    (hsort : SortsBy (fun a b => a.distance < b.distance) sort) (solve : List Row → XYZPoint) (hls : LeastSquares solve)
    (l : Level) (t : XYZPoint) (ms : List RadioData) (h4 : 4 ≤ ms.length) (hnd : (ms.map RadioData.id).Nodup)
    (htrue : TrueDistances l t ms) (hpos : ∀ m ∈ ms, 0 < m.distance) (hspan : NotCoplanar l ms) :
    calculateAltitude sort solve l ms = some
      (if ∀ m ∈ ms, heightTerm l t.x t.y m = none then .none else .value (ms.filterMap (heightTerm l t.x t.y)).sum) := by
  have hknown : ∀ m ∈ ms, ∃ tx, l.transmitter m.id = some tx := fun m hm => by
    obtain ⟨tx, h, -⟩ := htrue m hm; exact ⟨tx, h⟩
  have hlevel : getLevelRadioMeasurements RadioData.id l ms = ms := by
    unfold getLevelRadioMeasurements
    rw [List.filter_eq_self]
    intro m hm
    obtain ⟨tx, h⟩ := hknown m hm
    unfold Level.containsTransmitter
    unfold Level.transmitter at h
    rw [h]; rfl
  have hmeet : ∀ a ∈ ms, ∀ b ∈ ms, Meet l a b := by
    intro a ha b hb
    obtain ⟨t1, h1, h1'⟩ := htrue a ha
    obtain ⟨t2, h2, h2'⟩ := htrue b hb
    exact ⟨t1, t2, h1, h2, by rw [h1', h2']; exact dist3_triangle t _ _⟩
  have hmem : ∀ m, m ∈ sort ms ↔ m ∈ ms := fun m => (hsort.perm ms).mem_iff
  have hint : getIntersected sort l ms = some (sort ms) := by
    obtain ⟨res, h1, h2, -, -, -, h3⟩ := C50_intersect hsort l ms hknown
    rw [h1, Option.some.injEq]
    have hall : sort ms ⊆ res := by
      intro a ha
      by_contra hn
      obtain ⟨b, hb, a', ha', -, hm⟩ := h3 a ((hmem a).mp ha) hn
      exact hm (hmeet b hb a' ha')
    have hnd' : (sort ms).Nodup := by
      apply List.Nodup.of_map RadioData.id
      exact ((hsort.perm ms).map _).nodup_iff.mpr hnd
    exact h2.eq_of_length_le (List.subperm_of_subset hnd' hall).length_le
  have hperm := (hsort.perm ms).filterMap (heightTerm l t.x t.y)
  have hlen : (sort ms).length = ms.length := (hsort.perm ms).length_eq
  unfold calculateAltitude
  rw [hlevel, hint]
  dsimp only
  rw [if_neg (by omega)]
  cases hs : sort ms with
  | nil => rw [hs] at hlen; simp at hlen; omega
  | cons m1 rest =>
    rw [hs] at hmem hperm
    obtain ⟨tx1, ht1, hd1⟩ := htrue m1 ((hmem m1).mp (by simp))
    have hp1 : txPoint l m1.id = some tx1.point := by simp [txPoint, ht1]
    have hrest : ∀ ms' : List RadioData, (∀ m ∈ ms', m ∈ ms) →
        ∃ ps : List XYZPoint, ms'.mapM (fun m => (txPoint l m.id).map (fun p => (p, m.distance))) =
          some (ps.map (fun p => (p, dist3 t p))) ∧
          ∀ m ∈ ms', ∀ tx, l.transmitter m.id = some tx → tx.point ∈ ps := by
      intro ms'
      induction ms' with
      | nil => intro _; exact ⟨[], by simp, by simp⟩
      | cons m ms' ih =>
        intro hm
        obtain ⟨ps, e1, e2⟩ := ih (fun x hx => hm x (List.mem_cons_of_mem _ hx))
        obtain ⟨tx, ht, hd⟩ := htrue m (hm m (by simp))
        have hp : txPoint l m.id = some tx.point := by simp [txPoint, ht]
        refine ⟨tx.point :: ps, ?_, ?_⟩
        · rw [List.mapM_cons, e1, hp, hd]
          rfl
        · intro m' hm' tx' ht'
          rcases List.mem_cons.mp hm' with rfl | hm'
          · rw [ht] at ht'; cases ht'; simp
          · exact List.mem_cons_of_mem _ (e2 m' hm' tx' ht')
    obtain ⟨ps, e1, e2⟩ := hrest rest (fun m hm => (hmem m).mp (List.mem_cons_of_mem _ hm))
    simp only [hp1, e1]
    rw [List.map_map, hd1]
    have hsol := C51_solution solve hls t tx1.point ps (by
      intro v hv
      refine hspan v (tx1.point.x * v.x + tx1.point.y * v.y + tx1.point.z * v.z) ?_
      intro m hm tx ht
      rcases List.mem_cons.mp ((hmem m).mpr hm) with rfl | hm'
      · rw [ht1] at ht; cases ht; rfl
      · have := hv _ (e2 m hm' tx ht)
        linarith)
    have hcomp : ((fun p : XYZPoint × ℝ => row tx1.point (dist3 t tx1.point) p.1 p.2) ∘ fun p => (p, dist3 t p)) =
        (fun p => row tx1.point (dist3 t tx1.point) p (dist3 t p)) := rfl
    rw [hcomp, hsol]
    dsimp only
    rw [sub_add_cancel, sub_add_cancel, altitudeSum_eq l t.x t.y (m1 :: rest)
      (fun m hm => hknown m ((hmem m).mp hm)) (fun m hm => (hpos m ((hmem m).mp hm)).ne')]
    rw [zero_add, hperm.sum_eq, Bool.true_and, hperm.isEmpty_eq]
    by_cases hn : ∀ m ∈ ms, heightTerm l t.x t.y m = none
    · rw [if_pos hn]
      have : ms.filterMap (heightTerm l t.x t.y) = [] := List.filterMap_eq_nil_iff.mpr hn
      rw [this]
      rfl
    · rw [if_neg hn]
      have : (ms.filterMap (heightTerm l t.x t.y)).isEmpty = false := by
        rw [Bool.eq_false_iff, ne_eq, List.isEmpty_iff, List.filterMap_eq_nil_iff]
        exact hn
      rw [this]

/-- The hypotheses of `C51_answer` are met by the four beacons of the example. -/
example : TrueDistances exampleLevel ⟨0, 0, 0⟩ exact ∧ NotCoplanar exampleLevel exact ∧ 4 ≤ exact.length ∧
    (exact.map RadioData.id).Nodup ∧ ∀ m ∈ exact, 0 < m.distance := by
  refine ⟨?_, ?_, by simp [exact], by simp [exact, measured], by simp [exact, measured]⟩
  · obtain ⟨h1, h2, h3, h4⟩ := true_distances
    intro m hm
    simp only [exact, List.mem_cons, List.not_mem_nil, or_false] at hm
    rcases hm with rfl | rfl | rfl | rfl
    · exact ⟨_, rfl, h1.symm⟩
    · exact ⟨_, rfl, h2.symm⟩
    · exact ⟨_, rfl, h3.symm⟩
    · exact ⟨_, rfl, h4.symm⟩
  · intro v c h
    have a := h (measured "a" 3) (by simp [exact]) _ rfl
    have b := h (measured "b" 5) (by simp [exact]) _ rfl
    have d := h (measured "c" 5) (by simp [exact]) _ rfl
    have e := h (measured "d" 5) (by simp [exact]) _ rfl
    simp only at a b d e
    cases v
    simp only [XYZPoint.mk.injEq] at *
    exact ⟨by linarith, by linarith, by linarith⟩

end Verif.Trilat
