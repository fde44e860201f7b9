import Verif.Prints.Spec
import Verif.Floors.Lemmas
import Verif.Nav.KnnProps

/-!
# The answers of the KNN estimator and of the level detector on several floors
-/

namespace Verif.Prints

open Verif.Levels Verif.Nav
open Verif.Knn (Result)
open Verif.Geo (XYPoint)
open Verif.Floors

theorem collect_all (ls : List Level) : (collect ls).levels = ls := (C12_lookup ls "").1

theorem distinct {ls : List Level} (hm : GoodMap ls) : Knn.DistinctLevels (collect ls) := by
  unfold Knn.DistinctLevels
  rw [collect_all]
  have := hm.nodup
  unfold List.Nodup at this
  rw [List.pairwise_map] at this
  exact this

theorem hasFingerprint_on {ls : List Level} (hm : GoodMap ls) {lv : Level} (hlv : lv ∈ ls) (tx : String) :
    Knn.HasFingerprint (collect ls) lv.id tx ↔ OnMap lv tx := by
  unfold Knn.HasFingerprint OnMap
  rw [collect_all]
  constructor
  · rintro ⟨l, hl, hid, h⟩
    rw [List.inj_on_of_nodup_map hm.nodup hl hlv hid] at h
    exact h
  · exact fun h => ⟨lv, hlv, rfl, h⟩

theorem mapAverages_on {ls : List Level} (hm : GoodMap ls) {lv : Level} (hlv : lv ∈ ls) {win : List RadioMeasurement}
    {radio : List RadioData} (h : HandedOut win radio) : MapAverages lv win (Knn.usable (collect ls) lv.id radio) := by
  classical
  have hmem : ∀ e, e ∈ Knn.usable (collect ls) lv.id radio ↔ e ∈ radio ∧ OnMap lv e.id := by
    intro e
    unfold Knn.usable
    rw [List.mem_filter]
    simp [hasFingerprint_on hm hlv]
  constructor
  · exact h.sorted.sublist ((List.filter_sublist).map _)
  · intro id
    constructor
    · rintro ⟨e, he, rfl⟩
      obtain ⟨h1, h2⟩ := (hmem e).mp he
      exact ⟨h2, (h.ids e.id).mp ⟨e, h1, rfl⟩⟩
    · rintro ⟨h1, h2⟩
      obtain ⟨e, he, rfl⟩ := (h.ids id).mpr h2
      exact ⟨e, (hmem e).mpr ⟨he, h1⟩, rfl⟩
  · exact fun e he => h.rssi e ((hmem e).mp he).1
  · exact fun e he => h.power e ((hmem e).mp he).1

theorem split_unique {ls : List Level} (hm : GoodMap ls) {lv : Level} {a b a' b' : List Level} (h : ls = a ++ lv :: b)
    (h' : ls = a' ++ lv :: b') : a = a' := by
  have hn := List.Nodup.of_map _ hm.nodup
  have no : ∀ p x q : List Level, ls ≠ p ++ lv :: (x ++ lv :: q) := by
    rintro p x q rfl
    rw [List.nodup_append] at hn
    have := hn.2.1
    rw [List.nodup_cons] at this
    exact this.1 (by simp)
  have h2 := h'
  rw [h] at h2
  rcases List.append_eq_append_iff.mp h2 with ⟨x, e1, e2⟩ | ⟨x, e1, e2⟩
  · cases x with
    | nil => simpa using e1.symm
    | cons y x =>
      rw [List.cons_append, List.cons.injEq] at e2
      rw [e2.2] at h
      exact absurd h (no _ _ _)
  · cases x with
    | nil => simpa using e1
    | cons y x =>
      rw [List.cons_append, List.cons.injEq] at e2
      rw [e2.2] at h'
      exact absurd h' (no _ _ _)

theorem meshedOn_iff (s : Triang.Sorts) {ls : List Level} (hm : GoodMap ls) {lv : Level} (hlv : lv ∈ ls) (cs : CommonSettings) :
    MeshedOn s ls cs lv ↔ (cs.useTriangles = true → (StdMap.find? (Knn.triangulate s (collect ls)) lv.id).isSome) := by
  classical
  obtain ⟨before, after, hsp⟩ := List.append_of_mem hlv
  have h := Knn.C75_triangulated s (collect ls) (distinct hm) before after lv (by rw [collect_all]; exact hsp)
  unfold MeshedOn
  rw [h]
  constructor
  · intro hmesh ht
    obtain ⟨h1, b, a, h2, h3⟩ := hmesh ht
    rw [split_unique hm h2 hsp] at h3
    rw [if_pos ⟨h1, h3⟩]
    rfl
  · intro hmesh ht
    have := hmesh ht
    split_ifs at this with hi
    · exact ⟨hi.1, before, after, hsp, hi.2⟩
    · cases this

/-! ## The detected floor -/

theorem fingerprints_prints (lv : Level) (tx : String) (g : ℝ → ℝ) :
    ((Knn.levelRadiomap lv).filter (fun f => f.tx == tx)).map (fun f => g f.stat.mean) = (printsOf lv tx).map g := by
  unfold Knn.levelRadiomap printsOf
  rw [List.filter_flatMap, List.map_flatMap, List.map_flatMap]
  congr 1
  funext rp
  rw [List.filter_map, List.map_map, List.map_map]
  rfl

theorem any_onMap (lv : Level) (tx : String) : (Knn.levelRadiomap lv).any (fun f => f.tx == tx) = true ↔ OnMap lv tx := by
  unfold Knn.levelRadiomap OnMap
  rw [List.any_eq_true]
  constructor
  · rintro ⟨f, hf, h⟩
    obtain ⟨rp, hrp, hf⟩ := List.mem_flatMap.mp hf
    obtain ⟨p, hp, rfl⟩ := List.mem_map.mp hf
    exact ⟨rp, hrp, p, hp, by simpa using h⟩
  · rintro ⟨rp, hrp, p, hp, h⟩
    exact ⟨_, List.mem_flatMap.mpr ⟨rp, hrp, List.mem_map_of_mem hp⟩, by simpa using h⟩

theorem closeness_eq (lv : Level) {win : List RadioMeasurement} {e : RadioData} (he : e.rssi = meanRssi win e.id) :
    Knn.closeness (Knn.levelRadiomap lv) e = agreement lv win e.id := by
  unfold Knn.closeness agreement Radio.mean
  dsimp only
  rw [he]
  have h := fingerprints_prints lv e.id (fun a => 1 / (|(|meanRssi win e.id| - |a|)| + 1 / 10))
  have hl := congrArg List.length h
  rw [List.length_map] at hl
  rw [h, hl]

theorem hits_ids (lv : Level) {win : List RadioMeasurement} {radio : List RadioData} (ho : HandedOut win radio) :
    ((Knn.hits (Knn.levelRadiomap lv) radio).map RadioData.id).Perm (knownIds lv win) := by
  classical
  have h1 : (Knn.hits (Knn.levelRadiomap lv) radio).map RadioData.id = (radio.map RadioData.id).filter (fun id => OnMap lv id) := by
    unfold Knn.hits
    rw [List.filter_map]
    congr 1
    apply List.filter_congr
    intro m _
    rw [Bool.eq_iff_iff, any_onMap]
    simp
  rw [h1]
  unfold knownIds
  have := (handed_ids ho).filter (fun id => decide (OnMap lv id))
  convert this

theorem levelScore_eq (lv : Level) {win : List RadioMeasurement} {radio : List RadioData} (ho : HandedOut win radio) :
    Knn.levelScore (Knn.levelRadiomap lv) radio = score win lv := by
  have hp := hits_ids lv ho
  unfold Knn.levelScore score
  rw [← hp.length_eq, List.length_map, ← (hp.map (agreement lv win)).sum_eq, List.map_map]
  congr 2
  apply List.map_congr_left
  intro e he
  exact closeness_eq lv (ho.rssi e (List.mem_of_mem_filter he))

theorem known_nil (lv : Level) {win : List RadioMeasurement} {radio : List RadioData} (ho : HandedOut win radio) :
    0 ≤ score win lv ∧ (0 < score win lv ↔ knownIds lv win ≠ []) := by
  obtain ⟨h1, h2⟩ := Knn.C28_score radio (Knn.levelRadiomap lv)
  rw [levelScore_eq lv ho] at h1 h2
  refine ⟨h1, h2.trans ?_⟩
  have hp := hits_ids lv ho
  rw [← List.length_pos_iff, ← hp.length_eq, List.length_map, List.length_pos_iff]
  constructor
  · rintro ⟨m, hm, f, hf, e⟩ h0
    have : m ∈ Knn.hits (Knn.levelRadiomap lv) radio := by
      unfold Knn.hits
      rw [List.mem_filter, List.any_eq_true]
      exact ⟨hm, f, hf, by simpa using e⟩
    rw [h0] at this
    cases this
  · intro h0
    obtain ⟨m, hm⟩ := List.exists_mem_of_ne_nil _ h0
    unfold Knn.hits at hm
    rw [List.mem_filter, List.any_eq_true] at hm
    obtain ⟨hm, f, hf, e⟩ := hm
    exact ⟨m, hm, f, hf, by simpa using e⟩

/-- The averages of a window name its floor. -/
theorem knn_detected {ls : List Level} {c : Cfg} (hc : Client ls c) (hp : PlainFingerprints c.cs) {win : List RadioMeasurement}
    {radio : List RadioData} (ho : HandedOut win radio) :
    ∃ d, WindowFloor ls win d ∧ detectLevel c radio = some ((d.map Level.id).getD "") := by
  obtain ⟨r, h1, h2⟩ := Knn.C28_level false (collect ls) radio
  rw [collect_all] at h2
  have hdet : detectLevel c radio = Knn.detectByRadiomap false (Knn.getLevelsRadiomaps (collect ls)) (collect ls) radio := by
    unfold detectLevel
    rw [hc.parts.detector, hc.parts.levels]
    unfold createLevelEstimator
    rw [if_pos (Or.inr hp.algorithm), hp.best]
  have hcost : ∀ l ∈ ls, (if false = true then Knn.calcWeightBestRp radio (Knn.fingerprintsOf (collect ls) l.id)
      else Knn.levelScore (Knn.fingerprintsOf (collect ls) l.id) radio) = score win l := by
    intro l hl
    rw [if_neg (by simp), Knn.fingerprintsOf_eq (distinct hc.map) (by rw [collect_all]; exact hl), levelScore_eq l ho]
  refine ⟨r, ?_, by rw [hdet, h1]; cases r <;> rfl⟩
  cases r with
  | none =>
    intro l hl
    have := h2 l hl trivial
    dsimp only at this
    rw [hcost l hl] at this
    by_contra hne
    have := (known_nil l ho).2.mpr hne
    linarith
  | some lv =>
    obtain ⟨before, after, hsp, -, h0, hb, ha⟩ := h2
    have hm : ∀ k, k ∈ before ∨ k = lv ∨ k ∈ after → k ∈ ls := by
      intro k hk
      rw [hsp]
      rcases hk with h | h | h <;> simp [h]
    dsimp only at h0
    rw [hcost lv (hm lv (by simp))] at h0
    refine ⟨before, after, hsp, (known_nil lv ho).2.mp h0, ?_, ?_⟩
    · intro k hk
      have := hb k hk trivial
      dsimp only at this
      rwa [hcost k (hm k (by simp [hk])), hcost lv (hm lv (by simp))] at this
    · intro k hk
      have := ha k hk trivial
      dsimp only at this
      rwa [hcost k (hm k (by simp [hk])), hcost lv (hm lv (by simp))] at this

/-! ## The estimator -/

theorem knn_indoor_on {ls : List Level} {lv : Level} {c : Cfg} (hc : Client ls c) (hp : PlainFingerprints c.cs) (old : Position) (ts : Int)
    (radio : List RadioData) {i : NavigationStatus × Position × Position} (h : indoorPosition c old lv ts radio = .ok i) :
    Knn.calculatePosition (Knn.mkCfg c.env.triSorts c.env.rpSort (collect ls) c.cs) old lv ts radio = .ok (i.1, i.2.1) ∧
      i.2.2 = i.2.1 := by
  have hk : c.indoor = .knn (Knn.mkCfg c.env.triSorts c.env.rpSort (collect ls) c.cs) := by
    rcases hc.parts.indoor with ⟨-, h⟩ | ⟨h, -⟩
    · exact h
    · exact absurd hp.algorithm h
  unfold indoorPosition at h
  rw [hk] at h
  obtain ⟨r, h1, h2⟩ := andThen_ok h
  cases h2
  exact ⟨h1, rfl⟩

/-- Without a window that gives a place the estimator repeats itself. -/
theorem knn_kept_on {ls : List Level} {lv : Level} (hlv : lv ∈ ls) {c : Cfg} (hc : Client ls c) (hp : PlainFingerprints c.cs)
    {old : Position} {ts : Int} {radio : List RadioData} {i : NavigationStatus × Position × Position}
    (h : indoorPosition c old lv ts radio = .ok i)
    (hn : radio = [] ∨ ∃ win, HandedOut win radio ∧ ¬ (Enough lv c.cs win ∧ MeshedOn c.env.triSorts ls c.cs lv)) :
    i.2.1 = old ∧ i.2.2 = old ∧ (radio = [] → i.1 = .NO_SOLUTION) ∧
    ∀ win, HandedOut win radio → (Enough lv c.cs win → i.1 = .NAVIGATION_ERROR) ∧ (¬ Enough lv c.cs win → i.1 = .NO_SOLUTION) := by
  obtain ⟨h1, h2⟩ := knn_indoor_on hc hp old ts radio h
  have hwf : Knn.WellFormed lv := hc.map.radiomap lv hlv
  obtain ⟨c1, c2, c3⟩ := Knn.C32_status c.env.triSorts c.env.rpSort (collect ls) c.cs old lv (by rw [collect_all]; exact hlv) hwf ts radio
  rw [h1] at c1 c2 c3
  have fin : ∀ st, (Result.ok (i.1, i.2.1) : Result (NavigationStatus × Position)) = .ok (st, old) →
      i.1 = st ∧ i.2.1 = old := by
    intro st h; simp only [Result.ok.injEq, Prod.mk.injEq] at h; exact h
  rw [h2]
  by_cases hr : radio = []
  · obtain ⟨e1, e2⟩ := fin _ (c1 hr)
    rw [e1, e2]
    refine ⟨rfl, rfl, fun _ => rfl, fun win ho => ⟨?_, fun _ => rfl⟩⟩
    rintro ⟨ids, -, hlen, hids⟩
    exfalso
    obtain ⟨id, hid⟩ := List.exists_mem_of_length_pos (show 0 < ids.length by have := hp.least; omega)
    obtain ⟨-, m, hm, -⟩ := hids id hid
    rw [(handed_nil ho).mp hr] at hm
    cases hm
  rcases hn with hn | ⟨win, ho, hn⟩
  · exact absurd hn hr
  by_cases hfp : ∃ tx, Knn.HasFingerprint (collect ls) lv.id tx
  swap
  · have := c2 hr hfp
    cases this
  obtain ⟨d1, d2, d3⟩ := c3 hr hfp
  have hiff : ∀ win, HandedOut win radio → (Enough lv c.cs win ↔
      c.cs.minNumOfMeasurementsForPositionCalculation ≤ (Knn.usable (collect ls) lv.id radio).length) :=
    fun win ho => enough_iff (mapAverages_on hc.map hlv ho)
  by_cases hen : c.cs.minNumOfMeasurementsForPositionCalculation ≤ (Knn.usable (collect ls) lv.id radio).length
  · have hnm : ¬ MeshedOn c.env.triSorts ls c.cs lv := fun hm => hn ⟨(hiff win ho).mpr hen, hm⟩
    obtain ⟨e1, e2⟩ := fin _ (d2 hen (fun hs => hnm ((meshedOn_iff _ hc.map hlv _).mpr hs)))
    rw [e1, e2]
    exact ⟨rfl, rfl, fun h => absurd h hr, fun w hw => ⟨fun _ => rfl, fun h => absurd ((hiff w hw).mpr hen) h⟩⟩
  · obtain ⟨e1, e2⟩ := fin _ (d1 hen)
    rw [e1, e2]
    exact ⟨rfl, rfl, fun _ => rfl, fun w hw => ⟨fun h => absurd ((hiff w hw).mp h) hen, fun _ => rfl⟩⟩

/-- With such a window it answers its place. -/
theorem knn_located_on {ls : List Level} {lv : Level} (hlv : lv ∈ ls) {c : Cfg} (hc : Client ls c) (hp : PlainFingerprints c.cs)
    (hE : ∀ l, (c.env.triSorts.edges l).Perm l) (hT : ∀ l, (c.env.triSorts.triangles l).Perm l) {old : Position} {ts : Int}
    {radio : List RadioData} {i : NavigationStatus × Position × Position} (h : indoorPosition c old lv ts radio = .ok i)
    {win : List RadioMeasurement} (ho : HandedOut win radio) (hl : Enough lv c.cs win) (hmesh : MeshedOn c.env.triSorts ls c.cs lv) :
    i.1 = .OK ∧ i.2.2 = i.2.1 ∧ FixAt c lv ts win i.2.1 := by
  obtain ⟨h1, h2⟩ := knn_indoor_on hc hp old ts radio h
  have hwf : Knn.WellFormed lv := hc.map.radiomap lv hlv
  have hmem : lv ∈ (collect ls).levels := by rw [collect_all]; exact hlv
  obtain ⟨c1, c2, c3⟩ := Knn.C32_status c.env.triSorts c.env.rpSort (collect ls) c.cs old lv hmem hwf ts radio
  have havg := mapAverages_on hc.map hlv ho
  have hen := (enough_iff (cs := c.cs) havg).mp hl
  have hone := hp.least
  obtain ⟨e, he⟩ := List.exists_mem_of_length_pos (show 0 < (Knn.usable (collect ls) lv.id radio).length by omega)
  have hr : radio ≠ [] := by
    rintro rfl
    unfold Knn.usable at he
    simp at he
  have hfp : ∃ tx, Knn.HasFingerprint (collect ls) lv.id tx :=
    ⟨e.id, (hasFingerprint_on hc.map hlv e.id).mpr ((havg.ids e.id).mp ⟨e, he, rfl⟩).1⟩
  obtain ⟨x, y, hx⟩ := (c3 hr hfp).2.2 hen ((meshedOn_iff _ hc.map hlv _).mp hmesh)
  rw [h1] at hx
  simp only [Result.ok.injEq, Prod.mk.injEq] at hx
  refine ⟨hx.1, h2, _, ⟨x, y⟩, havg, ?_, hx.2⟩
  have hok : Knn.calculatePosition (Knn.mkCfg c.env.triSorts c.env.rpSort (collect ls) c.cs) old lv ts radio = .ok (.OK, i.2.1) := by
    rw [h1, hx.1]
  by_cases ht : c.cs.useTriangles = true
  · obtain ⟨q, hne, hqx, hqy, hq⟩ := Knn.triangle_mode c.env.triSorts c.env.rpSort (collect ls) c.cs ht old lv hmem
      (distinct hc.map) ts radio i.2.1 hok
    have : (⟨x, y⟩ : XYPoint) = q := by
      rw [hx.2] at hqx hqy
      cases q
      simp only at hqx hqy
      rw [hqx, hqy]
    rw [this]
    exact placeOf_triangle hE hT hwf ht hne hq
  · unfold PlaceOf
    rw [if_neg ht]
    have h0 : i.2.1.x = 0 ∧ i.2.1.y = 0 := knn_origin (k := Knn.mkCfg c.env.triSorts c.env.rpSort (collect ls) c.cs) ht hok
    rw [hx.2] at h0
    obtain ⟨h3, h4⟩ := h0
    dsimp only at h3 h4
    rw [h3, h4]

/-! ## The floor in use and the last place -/

theorem windowFloor_unique {ls : List Level} {win : List RadioMeasurement} {a b : Option Level} (ha : WindowFloor ls win a)
    (hb : WindowFloor ls win b) : a = b := by
  cases a with
  | none =>
    cases b with
    | none => rfl
    | some b =>
      obtain ⟨p, q, e, hne, -⟩ := hb
      exact absurd (ha b (by rw [e]; simp)) hne
  | some a =>
    cases b with
    | none =>
      obtain ⟨p, q, e, hne, -⟩ := ha
      exact absurd (hb a (by rw [e]; simp)) hne
    | some b =>
      obtain ⟨p, q, h1, h2, h3, h4⟩ := ha
      obtain ⟨p', q', k1, k2, k3, k4⟩ := hb
      rw [h1] at k1
      rcases List.append_eq_append_iff.mp k1 with ⟨x, e1, e2⟩ | ⟨x, e1, e2⟩
      · cases x with
        | nil => simp at e2; rw [e2.1]
        | cons y x =>
          simp only [List.cons_append, List.cons.injEq] at e2
          obtain ⟨rfl, e2⟩ := e2
          have a1 := k3 a (by rw [e1]; simp)
          have a2 := h4 b (by rw [e2]; simp)
          exact absurd a1 (not_lt.mpr a2)
      · cases x with
        | nil => simp at e2; rw [e2.1]
        | cons y x =>
          simp only [List.cons_append, List.cons.injEq] at e2
          obtain ⟨rfl, e2⟩ := e2
          have a1 := h3 b (by rw [e1]; simp)
          have a2 := k4 a (by rw [e2]; simp)
          exact absurd a1 (not_lt.mpr a2)

theorem windowFloors_unique {ls : List Level} {ws : List (Int × List RadioMeasurement)} {ds ds' : List (Option Level)}
    (h : List.Forall₂ (fun w d => WindowFloor ls w.2 d) ws ds) (h' : List.Forall₂ (fun w d => WindowFloor ls w.2 d) ws ds') : ds = ds' := by
  induction h generalizing ds' with
  | nil => cases h'; rfl
  | cons h1 _ ih =>
    cases h' with
    | cons h2 h3 => rw [windowFloor_unique h1 h2, ih h3]

theorem inUse_unique {ls : List Level} (hm : GoodMap ls) {ws : List (Int × List RadioMeasurement)} {a b : Level}
    (ha : InUse ls ws a) (hb : InUse ls ws b) : a = b := by
  obtain ⟨ha, ds, h1, h2⟩ := ha
  obtain ⟨hb, ds', h1', h2'⟩ := hb
  have := windowFloors_unique h1 h1'
  subst this
  rw [h2, Option.some.injEq] at h2'
  exact List.inj_on_of_nodup_map hm.nodup ha hb h2'

theorem votes_mem (ds : List String) {u : String} (h : (votes ds).used = some u) : u ∈ ds := by
  induction ds using List.reverseRecOn with
  | nil => cases h
  | append_singleton ds d ih =>
    rw [votes_snoc] at h
    rcases see_used (votes ds) d with h' | ⟨-, h'⟩
    · rw [h', Option.some.injEq] at h
      rw [← h]; simp
    · rw [h'] at h
      exact List.mem_append_left _ (ih h)

theorem votes_some (ds : List String) (hne : ds ≠ []) : (votes ds).used.isSome := by
  induction ds using List.reverseRecOn with
  | nil => exact absurd rfl hne
  | append_singleton ds d ih =>
    rw [votes_snoc]
    rcases see_used (votes ds) d with h' | ⟨h, h'⟩
    · rw [h']; rfl
    · rw [h']; exact h

theorem floor_mem {ls : List Level} {ws : List (Int × List RadioMeasurement)} {ds : List (Option Level)}
    (h : List.Forall₂ (fun w d => WindowFloor ls w.2 d) ws ds) : ∀ l, some l ∈ ds → l ∈ ls := by
  induction h with
  | nil => intro l hl; cases hl
  | cons h1 _ ih =>
    intro l hl
    rcases List.mem_cons.mp hl with rfl | hl
    · obtain ⟨p, q, e, -⟩ := h1
      rw [e]; simp
    · exact ih l hl

/-- The level history names the floor in use. -/
theorem used_level {ls : List Level} (hm : GoodMap ls) {ws : List (Int × List RadioMeasurement)} {ds : List (Option Level)}
    (h : List.Forall₂ (fun w d => WindowFloor ls w.2 d) ws ds) {hist : LevelEst.History}
    (hcnt : Counted (votes (ds.filterMap (Option.map Level.id))) hist) :
    (∀ lv, InUse ls ws lv ↔ lv ∈ ls ∧ hist.current = lv.id) ∧
    (hist.current = "" ∨ ∃ lv, InUse ls ws lv) := by
  have hcur := hcnt.current
  constructor
  · intro lv
    constructor
    · rintro ⟨h1, ds', h2, h3⟩
      have := windowFloors_unique h h2
      subst this
      rw [h3] at hcur
      exact ⟨h1, hcur⟩
    · rintro ⟨h1, h2⟩
      refine ⟨h1, ds, h, ?_⟩
      cases hu : (votes (ds.filterMap (Option.map Level.id))).used with
      | none =>
        rw [hu, h2] at hcur
        exact absurd hcur (hm.named lv h1)
      | some u =>
        rw [hu, h2] at hcur
        rw [hcur]; rfl
  · cases hu : (votes (ds.filterMap (Option.map Level.id))).used with
    | none => rw [hu] at hcur; exact Or.inl hcur
    | some u =>
      have := votes_mem _ hu
      obtain ⟨o, ho, hou⟩ := List.mem_filterMap.mp this
      cases o with
      | none => cases hou
      | some l =>
        simp only [Option.map_some, Option.some.injEq] at hou
        exact Or.inr ⟨l, floor_mem h l ho, ds, h, by rw [hu, hou]⟩

theorem lastFix_unique {s : Triang.Sorts} {ls : List Level} (hm : GoodMap ls) {cs : CommonSettings}
    {ws : List (Int × List RadioMeasurement)} {lv k : Level} {t0 t1 : Int} {w0 w1 : List RadioMeasurement}
    (h0 : LastFix s ls cs ws lv t0 w0) (h1 : LastFix s ls cs ws k t1 w1) : lv = k ∧ t0 = t1 ∧ w0 = w1 := by
  obtain ⟨p, q, e, hf, hq⟩ := h0
  obtain ⟨p', q', e', hf', hq'⟩ := h1
  have e2 := e
  rw [e] at e'
  rcases List.append_eq_append_iff.mp e' with ⟨x, a, b⟩ | ⟨x, a, b⟩
  · cases x with
    | nil =>
      simp only [List.nil_append, List.cons.injEq, Prod.mk.injEq] at b
      obtain ⟨⟨rfl, rfl⟩, -⟩ := b
      rw [List.append_nil] at a
      subst a
      exact ⟨inUse_unique hm hf.1 hf'.1, rfl, rfl⟩
    | cons y x =>
      simp only [List.cons_append, List.cons.injEq] at b
      obtain ⟨rfl, b⟩ := b
      rw [a] at hf'
      exact absurd hf' (hq x (t1, w1) q' b k)
  · cases x with
    | nil =>
      simp only [List.nil_append, List.cons.injEq, Prod.mk.injEq] at b
      obtain ⟨⟨rfl, rfl⟩, -⟩ := b
      rw [List.append_nil] at a
      subst a
      exact ⟨inUse_unique hm hf.1 hf'.1, rfl, rfl⟩
    | cons y x =>
      simp only [List.cons_append, List.cons.injEq] at b
      obtain ⟨rfl, b⟩ := b
      rw [a] at hf
      exact absurd hf (hq' x (t0, w0) q b lv)

theorem lastFix_now {s : Triang.Sorts} {ls : List Level} {cs : CommonSettings} {ws : List (Int × List RadioMeasurement)} {lv : Level}
    {t0 : Int} {win : List RadioMeasurement} (h : Fixes s ls cs ws (t0, win) lv) : LastFix s ls cs (ws ++ [(t0, win)]) lv t0 win :=
  ⟨ws, [], rfl, h, fun a w b h => by simp at h⟩

theorem lastFix_still {s : Triang.Sorts} {ls : List Level} {cs : CommonSettings} {ws : List (Int × List RadioMeasurement)} {lv : Level}
    {t0 : Int} {win : List RadioMeasurement} (h : LastFix s ls cs ws lv t0 win) {w : Int × List RadioMeasurement}
    (hn : ∀ k, ¬ Fixes s ls cs ws w k) : LastFix s ls cs (ws ++ [w]) lv t0 win := by
  obtain ⟨p, q, rfl, hf, hq⟩ := h
  refine ⟨p, q ++ [w], by simp, hf, ?_⟩
  intro a e b hab
  cases b using List.reverseRecOn with
  | nil =>
    obtain ⟨rfl, h⟩ := List.append_inj' hab rfl
    cases h
    exact hn
  | append_singleton b e' _ =>
    have hab' : q ++ [w] = (a ++ e :: b) ++ [e'] := by rw [hab]; simp
    obtain ⟨h5, -⟩ := List.append_inj' hab' rfl
    exact hq a e b h5

theorem noFix_still {s : Triang.Sorts} {ls : List Level} {cs : CommonSettings} {ws : List (Int × List RadioMeasurement)}
    (h : NoFix s ls cs ws) {w : Int × List RadioMeasurement} (hn : ∀ k, ¬ Fixes s ls cs ws w k) : NoFix s ls cs (ws ++ [w]) := by
  intro a e b hab
  cases b using List.reverseRecOn with
  | nil =>
    obtain ⟨rfl, h⟩ := List.append_inj' hab rfl
    cases h
    exact hn
  | append_singleton b e' _ =>
    have hab' : ws ++ [w] = (a ++ e :: b) ++ [e'] := by rw [hab]; simp
    obtain ⟨h5, -⟩ := List.append_inj' hab' rfl
    exact h a e b h5

theorem fix_excl {s : Triang.Sorts} {ls : List Level} {cs : CommonSettings} {ws : List (Int × List RadioMeasurement)}
    (h : NoFix s ls cs ws) {lv : Level} {t0 : Int} {win : List RadioMeasurement} : ¬ LastFix s ls cs ws lv t0 win := by
  rintro ⟨p, q, e, hf, -⟩
  exact h p _ q e lv hf

end Verif.Prints
