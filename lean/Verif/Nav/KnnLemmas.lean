import Verif.Nav.KnnSpec
import Verif.Nav.ZoneLemmas

/-!
# The answers of the KNN estimator for the windows of a client with one floor
-/

namespace Verif.Nav

open Verif.Levels
open Verif.Knn (Result)
open Verif.Geo (XYPoint)

/-! ## Windows -/

theorem lastWindow_snoc {ls : List Level} {cs : CommonSettings} {P : List RadioMeasurement → Prop} {ms : List Measurement}
    {m : Measurement} {t : Int} {win : List RadioMeasurement} (h : LastWindow ls cs P (ms ++ [m]) t win) :
    (ClosesWith ls cs ms m t win ∧ P win) ∨
    (LastWindow ls cs P ms t win ∧ ∀ t' w, ClosesWith ls cs ms m t' w → ¬ P w) := by
  obtain ⟨before, e, after, h1, h2, h3, h4⟩ := h
  cases after using List.reverseRecOn with
  | nil =>
    obtain ⟨rfl, h⟩ := List.append_inj' h1 rfl
    cases h
    exact Or.inl ⟨h2, h3⟩
  | append_singleton after e' _ =>
    have h1' : ms ++ [m] = (before ++ e :: after) ++ [e'] := by rw [h1]; simp
    obtain ⟨rfl, h⟩ := List.append_inj' h1' rfl
    cases h
    refine Or.inr ⟨⟨before, e, after, rfl, h2, h3, ?_⟩, h4 after m [] rfl⟩
    intro a e1 b hab
    exact h4 a e1 (b ++ [m]) (by rw [hab]; simp)

theorem noWindow_snoc {ls : List Level} {cs : CommonSettings} {P : List RadioMeasurement → Prop} {ms : List Measurement}
    {m : Measurement} (h : NoWindow ls cs P (ms ++ [m])) :
    NoWindow ls cs P ms ∧ ∀ t w, ClosesWith ls cs ms m t w → ¬ P w := by
  refine ⟨?_, h ms m [] rfl⟩
  intro a e b hab
  exact h a e (b ++ [m]) (by rw [hab]; simp)

theorem window_cases (ls : List Level) (cs : CommonSettings) (P : List RadioMeasurement → Prop) (ms : List Measurement) :
    NoWindow ls cs P ms ∨ ∃ t win, LastWindow ls cs P ms t win := by
  classical
  induction ms using List.reverseRecOn with
  | nil => left; intro a e b h; simp at h
  | append_singleton ms m ih =>
    by_cases hm : ∃ t w, ClosesWith ls cs ms m t w ∧ P w
    · obtain ⟨t, w, h1, h2⟩ := hm
      refine Or.inr ⟨t, w, ms, m, [], rfl, h1, h2, ?_⟩
      intro a e b h; simp at h
    have hm' : ∀ t w, ClosesWith ls cs ms m t w → ¬ P w := fun t w h1 h2 => hm ⟨t, w, h1, h2⟩
    rcases ih with h | ⟨t, win, before, e, after, h1, h2, h3, h4⟩
    · left
      intro a e b hab
      cases b using List.reverseRecOn with
      | nil =>
        obtain ⟨rfl, h⟩ := List.append_inj' hab rfl
        cases h
        exact hm'
      | append_singleton b e' _ =>
        have hab' : ms ++ [m] = (a ++ e :: b) ++ [e'] := by rw [hab]; simp
        obtain ⟨rfl, -⟩ := List.append_inj' hab' rfl
        exact h a e b rfl
    · right
      refine ⟨t, win, before, e, after ++ [m], by rw [h1]; simp, h2, h3, ?_⟩
      intro a e1 b hab
      cases b using List.reverseRecOn with
      | nil =>
        obtain ⟨rfl, h⟩ := List.append_inj' hab rfl
        cases h
        rw [← h1]
        exact hm'
      | append_singleton b e' _ =>
        have hab' : after ++ [m] = (a ++ e1 :: b) ++ [e'] := by rw [hab]; simp
        obtain ⟨h5, -⟩ := List.append_inj' hab' rfl
        exact h4 a e1 b h5

/-! ## The map -/

theorem collect_one (lv : Level) : (collect [lv]).levels = [lv] := (C12_lookup [lv] "").1

theorem hasFingerprint_one (lv : Level) (tx : String) : Knn.HasFingerprint (collect [lv]) lv.id tx ↔ OnMap lv tx := by
  unfold Knn.HasFingerprint OnMap
  rw [collect_one]
  simp

theorem mapAverages {lv : Level} {win : List RadioMeasurement} {radio : List RadioData} (h : HandedOut win radio) :
    MapAverages lv win (Knn.usable (collect [lv]) lv.id radio) := by
  classical
  have hmem : ∀ e, e ∈ Knn.usable (collect [lv]) lv.id radio ↔ e ∈ radio ∧ OnMap lv e.id := by
    intro e
    unfold Knn.usable
    rw [List.mem_filter]
    simp [hasFingerprint_one]
  constructor
  · exact h.sorted.sublist ((List.filter_sublist).map _)
  · intro id
    constructor
    · rintro ⟨e, he, rfl⟩
      obtain ⟨h1, h2⟩ := (hmem e).mp he
      exact ⟨h2, (h.ids e.id).mp ⟨e, h1, rfl⟩⟩
    · rintro ⟨h1, h2⟩
      obtain ⟨e, he, rfl⟩ := (h.ids id).mpr h2
      exact ⟨e, (hmem e).mpr ⟨he, h1⟩, rfl⟩
  · exact fun e he => h.rssi e ((hmem e).mp he).1
  · exact fun e he => h.power e ((hmem e).mp he).1

theorem enough_iff {lv : Level} {cs : CommonSettings} {win : List RadioMeasurement} {avg : List RadioData}
    (h : MapAverages lv win avg) : Enough lv cs win ↔ cs.minNumOfMeasurementsForPositionCalculation ≤ avg.length := by
  have hnd : (avg.map RadioData.id).Nodup := h.sorted.imp (fun h => ne_of_lt h)
  constructor
  · rintro ⟨ids, h1, h2, h3⟩
    refine h2.trans ?_
    have : ids ⊆ avg.map RadioData.id := by
      intro id hid
      obtain ⟨e, he, rfl⟩ := (h.ids id).mpr (h3 id hid)
      exact List.mem_map_of_mem he
    have := (h1.subperm this).length_le
    rwa [List.length_map] at this
  · intro hl
    refine ⟨avg.map RadioData.id, hnd, by rwa [List.length_map], ?_⟩
    intro id hid
    obtain ⟨e, he, rfl⟩ := List.mem_map.mp hid
    exact (h.ids e.id).mp ⟨e, he, rfl⟩

theorem meshed_iff (s : Triang.Sorts) (lv : Level) (cs : CommonSettings) :
    Meshed s lv cs ↔ (cs.useTriangles = true → (StdMap.find? (Knn.triangulate s (collect [lv])) lv.id).isSome) := by
  classical
  have h := Knn.C75_triangulated s (collect [lv]) (by unfold Knn.DistinctLevels; rw [collect_one]; simp) [] [] lv (collect_one lv)
  unfold Meshed
  rw [h]
  constructor
  · intro hm ht
    obtain ⟨h1, h2⟩ := hm ht
    rw [if_pos ⟨h1, by intro l hl _; simp at hl; rw [hl]; exact h2⟩]
    rfl
  · intro hm ht
    have := hm ht
    split_ifs at this with hi
    · exact ⟨hi.1, hi.2 lv (by simp) hi.1⟩
    · cases this

/-! ## The estimator -/

theorem weightOf_eq (lv : Level) (cs : CommonSettings) (avg : List RadioData) (rp : String) :
    Knn.weightOf (Knn.calcRpWeightsKnn (Knn.levelRadiomap lv) avg cs.useDiffMode) rp = rpWeight lv cs avg rp := by
  obtain ⟨h1, h2⟩ := Knn.C29_weights (Knn.levelRadiomap lv) avg cs.useDiffMode rp
  unfold Knn.weightOf rpWeight
  dsimp only
  cases hf : StdMap.find? (Knn.calcRpWeightsKnn (Knn.levelRadiomap lv) avg cs.useDiffMode) rp with
  | none =>
    rw [hf] at h1
    rw [if_pos]
    · rfl
    · by_contra hlt
      have := h1.mpr (by omega)
      cases this
  | some w =>
    rw [hf] at h1
    have h3 : 3 ≤ (Knn.matched (Knn.levelRadiomap lv) avg rp).length := h1.mp rfl
    rw [if_neg (by omega)]
    exact (h2 w hf).2

theorem triangleWeight_eq (lv : Level) (cs : CommonSettings) (avg : List RadioData) (t : Triang.Triangle) :
    Knn.triangleWeight (Knn.calcRpWeightsKnn (Knn.levelRadiomap lv) avg cs.useDiffMode) ⟨t.a.id, t.b.id, t.c.id⟩ =
      meshWeight lv cs avg t := by
  unfold Knn.triangleWeight meshWeight
  rw [weightOf_eq, weightOf_eq, weightOf_eq]

theorem placeOf_triangle {s : Triang.Sorts} (hE : ∀ l, (s.edges l).Perm l) (hT : ∀ l, (s.triangles l).Perm l) {lv : Level}
    (hwf : Knn.WellFormed lv) {cs : CommonSettings} (ht : cs.useTriangles = true) {avg : List RadioData} {q : XYPoint}
    (hne : Knn.levelTriangles s lv ≠ [])
    (hq : Knn.calcPositionInTriangle ((Knn.levelTriangles s lv).map (fun t => ⟨t.a.id, t.b.id, t.c.id⟩)) lv.radiomap
      (Knn.calcRpWeightsKnn (Knn.levelRadiomap lv) avg cs.useDiffMode) = .ok q) : PlaceOf s lv cs avg q := by
  have hw : ∀ q ∈ Knn.calcRpWeightsKnn (Knn.levelRadiomap lv) avg cs.useDiffMode, 0 ≤ q.2 := by
    intro q hq
    have hq' := StdMap.find?_of_mem (Knn.calcRpWeightsKnn_sorted (Knn.levelRadiomap lv) avg cs.useDiffMode) (k := q.1) (v := q.2) hq
    exact ((Knn.C29_weights _ _ _ _).2 _ hq').1.le
  obtain ⟨t, bef, aft, pt, hsplit, hb, ha, hpt, hcase⟩ :=
    Knn.C30_in_triangle ((Knn.levelTriangles s lv).map (fun t => (⟨t.a.id, t.b.id, t.c.id⟩ : Knn.RpTriangle)))
      (by simpa using hne) lv.radiomap.referencePoints _ hw
  rw [← hwf, hq] at hpt
  have hqp : q = pt := by simpa using hpt
  subst hqp
  obtain ⟨B, rest, hsp, hB, hrest⟩ := List.map_eq_append_iff.mp hsplit
  obtain ⟨u, A, hrest', hu, hA⟩ := List.map_eq_cons_iff.mp hrest
  subst hB hA hu
  unfold PlaceOf
  rw [if_pos ht]
  have hknown : ∀ v ∈ u.corners, ∃ rp ∈ lv.radiomap.referencePoints, rp.id = v.id := by
    intro v hv
    have hmem : u ∈ Knn.levelTriangles s lv := by rw [hsp, hrest']; simp
    obtain ⟨rp, hrp, h⟩ := List.mem_map.mp (((Triang.C48_output s hE hT _ _).2 u hmem).1 v hv).1
    exact ⟨rp, hrp, by rw [← h]⟩
  refine ⟨B, u, A, by rw [hsp, hrest'], ?_, ?_, ?_, ?_⟩
  · intro v hv
    have := hb _ (List.mem_map_of_mem hv)
    rwa [triangleWeight_eq, triangleWeight_eq] at this
  · intro v hv
    have := ha _ (List.mem_map_of_mem hv)
    rwa [triangleWeight_eq, triangleWeight_eq] at this
  · intro hlt
    rcases hcase with ⟨h0, -⟩ | ⟨a, ha, b, hb, d, hd, hge, -⟩
    · exact h0
    · rw [triangleWeight_eq] at hge
      exact absurd hlt (not_lt.mpr hge)
  · intro hge
    rcases hcase with ⟨-, hlt | ⟨id, hid, hno⟩⟩ | ⟨a, ha, b, hb, d, hd, -, e1, e2, e3, e4, e5, hin⟩
    · rw [triangleWeight_eq] at hlt
      exact absurd hlt (not_lt.mpr hge)
    · exfalso
      simp only [List.mem_cons, List.not_mem_nil, or_false] at hid
      have : ∃ rp ∈ lv.radiomap.referencePoints, rp.id = id := by
        rcases hid with rfl | rfl | rfl <;> apply hknown <;> simp [Triang.Triangle.corners]
      obtain ⟨rp, hrp, h⟩ := this
      exact hno rp hrp h
    · refine ⟨a, ha, b, hb, d, hd, e1, e2, e3, hin, ?_, ?_⟩
      · rw [triangleWeight_eq, weightOf_eq, weightOf_eq, weightOf_eq] at e4
        rw [e1, e2, e3]
        exact e4
      · rw [triangleWeight_eq, weightOf_eq, weightOf_eq, weightOf_eq] at e5
        rw [e1, e2, e3]
        exact e5

/-- The position of a window. -/
def FixAt (c : Cfg) (lv : Level) (t0 : Int) (win : List RadioMeasurement) (q : Position) : Prop :=
  ∃ avg p, MapAverages lv win avg ∧ PlaceOf c.env.triSorts lv c.cs avg p ∧ q = ⟨p.x, p.y, lv.id, 1, t0, false, .INDOOR, 0⟩

theorem knn_indoor {lv : Level} {c : Cfg} (hc : Client [lv] c) (hp : ByFingerprints c.cs) (old : Position) (ts : Int)
    (radio : List RadioData) {i : NavigationStatus × Position × Position} (h : indoorPosition c old lv ts radio = .ok i) :
    Knn.calculatePosition (Knn.mkCfg c.env.triSorts c.env.rpSort (collect [lv]) c.cs) old lv ts radio = .ok (i.1, i.2.1) ∧
      i.2.2 = i.2.1 := by
  have hk : c.indoor = .knn (Knn.mkCfg c.env.triSorts c.env.rpSort (collect [lv]) c.cs) := by
    rcases hc.parts.indoor with ⟨-, h⟩ | ⟨h, -⟩
    · exact h
    · exact absurd hp.algorithm h
  unfold indoorPosition at h
  rw [hk] at h
  obtain ⟨r, h1, h2⟩ := andThen_ok h
  cases h2
  exact ⟨h1, rfl⟩

/-- Without a window from which a place is computed the estimator repeats itself. -/
theorem knn_kept {lv : Level} {c : Cfg} (hc : Client [lv] c) (hp : ByFingerprints c.cs) {old : Position} {ts : Int}
    {radio : List RadioData} {i : NavigationStatus × Position × Position} (h : indoorPosition c old lv ts radio = .ok i)
    (hn : radio = [] ∨ ∃ win, HandedOut win radio ∧ ¬ Locates c.env.triSorts lv c.cs win) :
    i.2.1 = old ∧ i.2.2 = old ∧ i.1 ≠ .OK ∧ (Meshed c.env.triSorts lv c.cs → i.1 = .NO_SOLUTION) := by
  obtain ⟨h1, h2⟩ := knn_indoor hc hp old ts radio h
  have hwf : Knn.WellFormed lv := hc.map.radiomap lv (by simp)
  obtain ⟨c1, c2, c3⟩ := Knn.C32_status c.env.triSorts c.env.rpSort (collect [lv]) c.cs old lv (by rw [collect_one]; simp) hwf ts radio
  rw [h1] at c1 c2 c3
  have fin : ∀ st, (Result.ok (i.1, i.2.1) : Result (NavigationStatus × Position)) = .ok (st, old) →
      i.1 = st ∧ i.2.1 = old := by
    intro st h; simp only [Result.ok.injEq, Prod.mk.injEq] at h; exact h
  rw [h2]
  by_cases hr : radio = []
  · obtain ⟨e1, e2⟩ := fin _ (c1 hr)
    rw [e1, e2]
    exact ⟨rfl, rfl, by simp, fun _ => rfl⟩
  rcases hn with hn | ⟨win, ho, hn⟩
  · exact absurd hn hr
  by_cases hfp : ∃ tx, Knn.HasFingerprint (collect [lv]) lv.id tx
  swap
  · have := c2 hr hfp
    cases this
  obtain ⟨d1, d2, d3⟩ := c3 hr hfp
  by_cases hen : c.cs.minNumOfMeasurementsForPositionCalculation ≤ (Knn.usable (collect [lv]) lv.id radio).length
  · have hnm : ¬ Meshed c.env.triSorts lv c.cs := fun hm => hn ⟨(enough_iff (mapAverages ho)).mpr hen, hm⟩
    obtain ⟨e1, e2⟩ := fin _ (d2 hen (fun hs => hnm ((meshed_iff _ _ _).mpr hs)))
    rw [e1, e2]
    exact ⟨rfl, rfl, by simp, fun h => absurd h hnm⟩
  · obtain ⟨e1, e2⟩ := fin _ (d1 hen)
    rw [e1, e2]
    exact ⟨rfl, rfl, by simp, fun _ => rfl⟩

theorem knn_origin {k : Knn.Cfg} (ht : ¬ k.useTriangles = true) {old p : Position} {lv : Level} {ts : Int} {radio : List RadioData}
    (hok : Knn.calculatePosition k old lv ts radio = .ok (.OK, p)) : p.x = 0 ∧ p.y = 0 := by
  unfold Knn.calculatePosition at hok
  split_ifs at hok
  · simp at hok
  split at hok
  · cases hok
  dsimp only at hok
  split_ifs at hok
  · simp at hok
  split at hok
  · cases hok
  rw [Knn.C31_always_origin] at hok
  simp only [Result.ok.injEq, Prod.mk.injEq, true_and] at hok
  rw [← hok]
  exact ⟨rfl, rfl⟩

/-- With such a window it answers its place. -/
theorem knn_located {lv : Level} {c : Cfg} (hc : Client [lv] c) (hp : ByFingerprints c.cs)
    (hE : ∀ l, (c.env.triSorts.edges l).Perm l) (hT : ∀ l, (c.env.triSorts.triangles l).Perm l) {old : Position} {ts : Int}
    {radio : List RadioData} {i : NavigationStatus × Position × Position} (h : indoorPosition c old lv ts radio = .ok i)
    {win : List RadioMeasurement} (ho : HandedOut win radio) (hl : Locates c.env.triSorts lv c.cs win) :
    i.1 = .OK ∧ i.2.2 = i.2.1 ∧ FixAt c lv ts win i.2.1 := by
  obtain ⟨h1, h2⟩ := knn_indoor hc hp old ts radio h
  have hwf : Knn.WellFormed lv := hc.map.radiomap lv (by simp)
  have hmem : lv ∈ (collect [lv]).levels := by rw [collect_one]; simp
  obtain ⟨c1, c2, c3⟩ := Knn.C32_status c.env.triSorts c.env.rpSort (collect [lv]) c.cs old lv hmem hwf ts radio
  have havg := mapAverages (lv := lv) ho
  have hen := (enough_iff (cs := c.cs) havg).mp hl.1
  have hone := hp.least
  obtain ⟨e, he⟩ := List.exists_mem_of_length_pos (show 0 < (Knn.usable (collect [lv]) lv.id radio).length by omega)
  have hr : radio ≠ [] := by
    rintro rfl
    unfold Knn.usable at he
    simp at he
  have hfp : ∃ tx, Knn.HasFingerprint (collect [lv]) lv.id tx :=
    ⟨e.id, (hasFingerprint_one lv e.id).mpr ((havg.ids e.id).mp ⟨e, he, rfl⟩).1⟩
  obtain ⟨x, y, hx⟩ := (c3 hr hfp).2.2 hen ((meshed_iff _ _ _).mp hl.2)
  rw [h1] at hx
  simp only [Result.ok.injEq, Prod.mk.injEq] at hx
  refine ⟨hx.1, h2, _, ⟨x, y⟩, havg, ?_, hx.2⟩
  have hok : Knn.calculatePosition (Knn.mkCfg c.env.triSorts c.env.rpSort (collect [lv]) c.cs) old lv ts radio = .ok (.OK, i.2.1) := by
    rw [h1, hx.1]
  by_cases ht : c.cs.useTriangles = true
  · obtain ⟨q, hne, hqx, hqy, hq⟩ := Knn.triangle_mode c.env.triSorts c.env.rpSort (collect [lv]) c.cs ht old lv hmem
      (by unfold Knn.DistinctLevels; rw [collect_one]; simp) ts radio i.2.1 hok
    have : (⟨x, y⟩ : XYPoint) = q := by
      rw [hx.2] at hqx hqy
      cases q
      simp only at hqx hqy
      rw [hqx, hqy]
    rw [this]
    exact placeOf_triangle hE hT hwf ht hne hq
  · unfold PlaceOf
    rw [if_neg ht]
    have h0 : i.2.1.x = 0 ∧ i.2.1.y = 0 := knn_origin (k := Knn.mkCfg c.env.triSorts c.env.rpSort (collect [lv]) c.cs) ht hok
    rw [hx.2] at h0
    obtain ⟨h3, h4⟩ := h0
    dsimp only at h3 h4
    rw [h3, h4]

/-- The detected level: the floor, if a transmitter with a fingerprint is among the averages. -/
theorem knn_level {lv : Level} {c : Cfg} (hc : Client [lv] c) (hp : ByFingerprints c.cs) (radio : List RadioData) {d : String}
    (h : detectLevel c radio = some d) :
    (d = "" ∨ d = lv.id) ∧ ((∃ e ∈ radio, OnMap lv e.id) → d = lv.id) := by
  have hid : lv.id ≠ "" := hc.map.named lv (by simp)
  unfold detectLevel at h
  rw [hc.parts.detector, hc.parts.levels] at h
  unfold createLevelEstimator at h
  rw [if_pos (Or.inr hp.algorithm), hp.best] at h
  dsimp only at h
  obtain ⟨r, h1, h2⟩ := Knn.C28_level false (collect [lv]) radio
  have hd : d = "" ∨ d = lv.id := by
    rw [h, Option.some.injEq] at h1
    cases r with
    | none => exact Or.inl h1
    | some l =>
      obtain ⟨a, b, hab, -⟩ := h2
      rw [collect_one] at hab
      have : l ∈ [lv] := by rw [hab]; simp
      rw [List.mem_singleton] at this
      rw [h1, this]
      exact Or.inr rfl
  refine ⟨hd, ?_⟩
  rintro ⟨e, he, rp, hrp, p, hpm, hpe⟩
  rcases hd with hd | hd
  swap
  · exact hd
  exfalso
  subst hd
  have := (Knn.C28_empty_iff (collect [lv]) radio (by rw [collect_one]; intro l hl; rw [List.mem_singleton] at hl; rw [hl]; exact hid)).mp h
    lv (by rw [collect_one]; simp) e he ⟨p.1, rp.id, p.2⟩ (by
      unfold Knn.fingerprintsOf
      rw [collect_one]
      simp only [List.reverse_singleton, List.find?_cons, beq_self_eq_true]
      unfold Knn.levelRadiomap
      exact List.mem_flatMap.mpr ⟨rp, hrp, List.mem_map.mpr ⟨p, hpm, rfl⟩⟩)
  exact this hpe

end Verif.Nav
