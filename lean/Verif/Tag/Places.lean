import Verif.Tag.Lemmas

/-!
# Lemmas for C155: the estimators
-/

namespace Verif.Tag

open Verif.Levels Verif.Nav
open Verif.Geo (XYPoint GeoPoint)
open Verif.Knn (Result)

variable {f : String → String}

/-! ## Floors by transmitters -/

theorem transmitters_tag (hf : StrictMono f) (b : Bool) (c : LevelCollector) (ms : List RadioData) :
    LevelEst.detectByTransmitters b (tagMap f c) (ms.map (tag f)) = LevelEst.detectByTransmitters b c ms := by
  have hr : ∀ ms : List RadioData, LevelEst.getAverageRssi (ms.map (tag f)) = LevelEst.getAverageRssi ms := by
    intro ms
    unfold LevelEst.getAverageRssi
    rw [List.foldl_map, List.length_map]
    rfl
  have ha : ∀ (l : Level) (ms : List RadioData), LevelEst.getAverageA (tagLevel f l) (ms.map (tag f)) = LevelEst.getAverageA l ms := by
    intro l ms
    unfold LevelEst.getAverageA
    have hfold : ∀ (ms : List RadioData) (a : ℝ),
        (ms.map (tag f)).foldlM (fun a m => ((tagLevel f l).transmitter m.id).map (fun t => a + t.pathloss.A)) a =
          ms.foldlM (fun a m => (l.transmitter m.id).map (fun t => a + t.pathloss.A)) a := by
      intro ms
      induction ms with
      | nil => intro a; rfl
      | cons m ms ih =>
        intro a
        rw [List.map_cons, List.foldlM_cons, List.foldlM_cons]
        have : (tagLevel f l).transmitter (tag f m).id = (l.transmitter m.id).map (tagTransmitter f) := transmitter_tag hf l m.id
        rw [this]
        cases l.transmitter m.id with
        | none => rfl
        | some t => exact ih _
    rw [hfold, List.length_map]
  have hstep : ∀ best l, LevelEst.detectStep b (ms.map (tag f)) best (tagLevel f l) = LevelEst.detectStep b ms best l := by
    intro best l
    unfold LevelEst.detectStep LevelEst.levelCost
    dsimp only
    rw [filter_tag hf, ha, hr, List.length_map, List.length_map, List.isEmpty_map]
    rfl
  unfold LevelEst.detectByTransmitters
  congr 1
  change (c.levels.map (tagLevel f)).foldlM _ _ = _
  rw [List.foldlM_map]
  congr 1
  funext best l
  exact hstep best l

/-! ## Fingerprints -/

/-- A fingerprint. -/
def tagPrint (f : String → String) (p : Knn.Fingerprint) : Knn.Fingerprint := { p with tx := f p.tx }

theorem levelRadiomap_tag (l : Level) : Knn.levelRadiomap (tagLevel f l) = (Knn.levelRadiomap l).map (tagPrint f) := by
  unfold Knn.levelRadiomap
  change (l.radiomap.referencePoints.map (tagPoint f)).flatMap _ = _
  rw [List.flatMap_map, List.map_flatMap]
  congr 1
  funext rp
  simp only [tagPoint, List.map_map]
  rfl

theorem radiomaps_tag (c : LevelCollector) :
    Knn.getLevelsRadiomaps (tagMap f c) = vals (List.map (tagPrint f)) (Knn.getLevelsRadiomaps c) := by
  unfold Knn.getLevelsRadiomaps
  change (c.levels.map (tagLevel f)).foldl _ (vals (List.map (tagPrint f)) []) = _
  generalize ([] : List (String × List Knn.Fingerprint)) = m
  induction c.levels generalizing m with
  | nil => rfl
  | cons l ls ih =>
    rw [List.map_cons, List.foldl_cons, List.foldl_cons, ← ih]
    congr 1
    rw [levelRadiomap_tag]
    exact set_vals _ _ _ _

theorem refs_tag (hf : StrictMono f) (c : LevelCollector) :
    Knn.getLevelReferenceTransmittersMap (tagMap f c) = vals (List.map f) (Knn.getLevelReferenceTransmittersMap c) := by
  have hset : ∀ (xs s : List String), (xs.map f).foldl (fun s x => StdSet.insert x s) (s.map f) = (xs.foldl (fun s x => StdSet.insert x s) s).map f := by
    intro xs
    induction xs with
    | nil => intro s; rfl
    | cons x xs ih =>
      intro s
      rw [List.map_cons, List.foldl_cons, List.foldl_cons, setInsert_tag hf, ih]
  have hids : ∀ (ps : List (String × SignalStatistics)),
      (ps.map (fun p => (f p.1, p.2))).foldl (fun s p => StdSet.insert p.1 s) [] = (ps.foldl (fun s p => StdSet.insert p.1 s) []).map f := by
    intro ps
    have h1 : ∀ (qs : List (String × SignalStatistics)) (s : List String),
        qs.foldl (fun s p => StdSet.insert p.1 s) s = (qs.map Prod.fst).foldl (fun s x => StdSet.insert x s) s := by
      intro qs s
      rw [List.foldl_map]
    rw [h1, h1, List.map_map, ← hset]
    congr 1
    rw [List.map_map]
    rfl
  have hstep : ∀ (id : String) (m : List (String × List String)) (rp : ReferencePoint XYPoint),
      Knn.addRpTransmitters id (vals (List.map f) m) (tagPoint f rp) = vals (List.map f) (Knn.addRpTransmitters id m rp) := by
    intro id m rp
    unfold Knn.addRpTransmitters
    dsimp only [tagPoint]
    rw [hids, List.isEmpty_map, find_vals]
    split_ifs
    · rfl
    · cases StdMap.find? m id with
      | none => exact insert_vals _ _ _ _
      | some old =>
        simp only [Option.map_some]
        rw [hset]
        exact set_vals _ _ _ _
  have hlevel : ∀ (id : String) (rps : List (ReferencePoint XYPoint)) (m : List (String × List String)),
      (rps.map (tagPoint f)).foldl (Knn.addRpTransmitters id) (vals (List.map f) m) = vals (List.map f) (rps.foldl (Knn.addRpTransmitters id) m) := by
    intro id rps
    induction rps with
    | nil => intro m; rfl
    | cons rp rps ih =>
      intro m
      rw [List.map_cons, List.foldl_cons, List.foldl_cons, hstep, ih]
  unfold Knn.getLevelReferenceTransmittersMap
  change (c.levels.map (tagLevel f)).foldl _ (vals (List.map f) []) = _
  generalize ([] : List (String × List String)) = m
  induction c.levels generalizing m with
  | nil => rfl
  | cons l ls ih =>
    rw [List.map_cons, List.foldl_cons, List.foldl_cons, ← ih]
    congr 1
    exact hlevel l.id l.radiomap.referencePoints m

theorem triangulate_tag (s : Triang.Sorts) (c : LevelCollector) : Knn.triangulate s (tagMap f c) = Knn.triangulate s c := by
  unfold Knn.triangulate
  change Knn.triangulateFrom s (c.levels.map (tagLevel f)) [] = _
  generalize ([] : List (String × List Knn.RpTriangle)) = m
  induction c.levels generalizing m with
  | nil => rfl
  | cons l ls ih =>
    rw [List.map_cons]
    unfold Knn.triangulateFrom
    dsimp only
    have h1 : (tagLevel f l).radiomap.referencePoints = l.radiomap.referencePoints.map (tagPoint f) := rfl
    have h2 : (tagLevel f l).geometry = l.geometry := rfl
    have h3 : (tagLevel f l).id = l.id := rfl
    rw [h1, h2, h3, List.length_map, List.map_map, ih, ih]
    rfl

theorem hasPoint_tag (l : Level) (id : String) : (tagLevel f l).radiomap.hasReferencePoint id = l.radiomap.hasReferencePoint id := rfl

theorem getPoint_tag (l : Level) (id : String) :
    (tagLevel f l).radiomap.getReferencePoint id = (l.radiomap.getReferencePoint id).map (tagPoint f) := by
  unfold Radiomap.getReferencePoint
  change (match StdMap.find? l.radiomap.index id with | none => none | some i => (l.radiomap.referencePoints.map (tagPoint f))[i]?) = _
  cases StdMap.find? l.radiomap.index id with
  | none => rfl
  | some i => simp

theorem inTriangle_tag (ts : List Knn.RpTriangle) (l : Level) (w : List (String × ℝ)) :
    Knn.calcPositionInTriangle ts (tagLevel f l).radiomap w = Knn.calcPositionInTriangle ts l.radiomap w := by
  unfold Knn.calcPositionInTriangle
  cases Knn.maxElement w ts with
  | none => rfl
  | some t =>
    dsimp only
    rw [hasPoint_tag, hasPoint_tag, hasPoint_tag, getPoint_tag, getPoint_tag, getPoint_tag]
    cases l.radiomap.getReferencePoint t.rp1 <;> cases l.radiomap.getReferencePoint t.rp2 <;>
      cases l.radiomap.getReferencePoint t.rp3 <;> rfl

theorem heaviest_tag (sort : List (String × ℝ) → List (String × ℝ)) (l : Level) (w : List (String × ℝ)) (k : ℕ) :
    Knn.calcKHeaviest sort (tagLevel f l).radiomap w k = Knn.calcKHeaviest sort l.radiomap w k := by
  unfold Knn.calcKHeaviest Knn.weightedMean
  dsimp only
  have : (fun (a : ℝ × ℝ × ℝ) (p : String × ℝ) => ((tagLevel f l).radiomap.getReferencePoint p.1).map
      (fun rp => (a.1 + p.2 * rp.point.x, a.2.1 + p.2 * rp.point.y, a.2.2 + p.2))) =
      fun a p => (l.radiomap.getReferencePoint p.1).map (fun rp => (a.1 + p.2 * rp.point.x, a.2.1 + p.2 * rp.point.y, a.2.2 + p.2)) := by
    funext a p
    rw [getPoint_tag, Option.map_map]
    rfl
  rw [this]

theorem txWeights_tag (hf : StrictMono f) (ms : List RadioData) :
    Knn.calcTransmittersWeights (ms.map (tag f)) = both f id (Knn.calcTransmittersWeights ms) := by
  unfold Knn.calcTransmittersWeights
  dsimp only
  have hfold : ∀ (ms : List RadioData) (a : List (String × ℝ)) (n : ℝ),
      (ms.map (tag f)).foldl (fun (a : List (String × ℝ) × ℝ) m => (StdMap.set a.1 m.id (Knn.trust m), a.2 + Knn.trust m)) (both f id a, n) =
        (both f id (ms.foldl (fun (a : List (String × ℝ) × ℝ) m => (StdMap.set a.1 m.id (Knn.trust m), a.2 + Knn.trust m)) (a, n)).1,
          (ms.foldl (fun (a : List (String × ℝ) × ℝ) m => (StdMap.set a.1 m.id (Knn.trust m), a.2 + Knn.trust m)) (a, n)).2) := by
    intro ms
    induction ms with
    | nil => intro a n; rfl
    | cons m ms ih =>
      intro a n
      rw [List.map_cons, List.foldl_cons, List.foldl_cons]
      have ht : Knn.trust (tag f m) = Knn.trust m := rfl
      have hi : (tag f m).id = f m.id := rfl
      dsimp only
      rw [ht, hi]
      have := set_both hf (id : ℝ → ℝ) a m.id (Knn.trust m)
      rw [id_eq] at this
      rw [this]
      exact ih _ _
  have := hfold ms [] 0
  change (List.foldl _ ([], 0) (ms.map (tag f))) = _ at this
  rw [this]
  dsimp only
  unfold both
  rw [List.map_map, List.map_map]
  rfl

/-- Statistics of a reference point. -/
def tagStat (f : String → String) (s : Knn.SigStat) : Knn.SigStat := { s with txId := f s.txId }

theorem statistics_tag (hf : StrictMono f) (fps : List Knn.Fingerprint) (ms : List RadioData) :
    Knn.rpStatistics (fps.map (tagPrint f)) (ms.map (tag f)) = vals (List.map (tagStat f)) (Knn.rpStatistics fps ms) := by
  have hadd : ∀ st rp x, Knn.addStat (vals (List.map (tagStat f)) st) rp (tagStat f x) = vals (List.map (tagStat f)) (Knn.addStat st rp x) := by
    intro st rp x
    unfold Knn.addStat
    rw [find_vals, ← set_vals]
    congr 1
    cases StdMap.find? st rp with
    | none => rfl
    | some l => simp
  have hinner : ∀ (m : RadioData) (qs : List Knn.Fingerprint) (st : List (String × List Knn.SigStat)),
      (qs.map (tagPrint f)).foldl (fun st q => Knn.addStat st q.rp ⟨f m.id, m.rssi, q.stat.mean⟩) (vals (List.map (tagStat f)) st) =
        vals (List.map (tagStat f)) (qs.foldl (fun st q => Knn.addStat st q.rp ⟨m.id, m.rssi, q.stat.mean⟩) st) := by
    intro m qs
    induction qs with
    | nil => intro st; rfl
    | cons q qs ih =>
      intro st
      rw [List.map_cons, List.foldl_cons, List.foldl_cons, ← ih]
      congr 1
      exact hadd st q.rp ⟨m.id, m.rssi, q.stat.mean⟩
  unfold Knn.rpStatistics
  change _ = vals (List.map (tagStat f)) _
  have : ∀ (ms : List RadioData) (st : List (String × List Knn.SigStat)),
      (ms.map (tag f)).foldl (fun st m => ((fps.map (tagPrint f)).filter (fun q => q.tx == m.id)).foldl
        (fun st q => Knn.addStat st q.rp ⟨m.id, m.rssi, q.stat.mean⟩) st) (vals (List.map (tagStat f)) st) =
      vals (List.map (tagStat f)) (ms.foldl (fun st m => (fps.filter (fun q => q.tx == m.id)).foldl
        (fun st q => Knn.addStat st q.rp ⟨m.id, m.rssi, q.stat.mean⟩) st) st) := by
    intro ms
    induction ms with
    | nil => intro st; rfl
    | cons m ms ih =>
      intro st
      rw [List.map_cons, List.foldl_cons, List.foldl_cons, ← ih]
      congr 1
      have hfil : (fps.map (tagPrint f)).filter (fun q => q.tx == (tag f m).id) = (fps.filter (fun q => q.tx == m.id)).map (tagPrint f) := by
        rw [List.filter_map]
        congr 1
        refine List.filter_congr (fun q _ => ?_)
        rw [Bool.eq_iff_iff, beq_iff_eq]
        change (f q.tx == f m.id) = true ↔ _
        rw [beq_iff_eq]
        exact hf.injective.eq_iff
      rw [hfil]
      exact hinner m _ st
  exact this ms []

theorem rpWeights_tag (hf : StrictMono f) (fps : List Knn.Fingerprint) (ms : List RadioData) (d : Bool) :
    Knn.calcRpWeightsKnn (fps.map (tagPrint f)) (ms.map (tag f)) d = Knn.calcRpWeightsKnn fps ms d := by
  unfold Knn.calcRpWeightsKnn
  dsimp only
  rw [statistics_tag hf, txWeights_tag hf]
  generalize Knn.calcTransmittersWeights ms = w
  have hw : ∀ tx, Knn.weightOf (both f id w) (f tx) = Knn.weightOf w tx := by
    intro tx
    unfold Knn.weightOf
    rw [find_both hf]
    simp
  have hin : ∀ (a : Knn.SigStat) (bs : List Knn.SigStat) (acc : ℝ × ℝ),
      Knn.accInner (both f id w) (tagStat f a) (bs.map (tagStat f)) acc = Knn.accInner w a bs acc := by
    intro a bs acc
    unfold Knn.accInner
    rw [List.foldl_map]
    congr 1
    funext acc b
    change (acc.1 + max (_ * (Knn.weightOf (both f id w) (f a.txId) * Knn.weightOf (both f id w) (f b.txId))) _,
      acc.2 + Knn.weightOf (both f id w) (f a.txId) * Knn.weightOf (both f id w) (f b.txId)) = _
    rw [hw, hw]
    rfl
  have hout : ∀ (rest before : List Knn.SigStat) (acc : ℝ × ℝ),
      Knn.accOuter (both f id w) d (before.map (tagStat f)) (rest.map (tagStat f)) acc = Knn.accOuter w d before rest acc := by
    intro rest
    induction rest with
    | nil => intro before acc; rfl
    | cons a rest ih =>
      intro before acc
      rw [List.map_cons]
      unfold Knn.accOuter
      dsimp only
      rw [hin]
      have h1 : Knn.weightOf (both f id w) (tagStat f a).txId = Knn.weightOf w a.txId := hw a.txId
      rw [h1]
      have := ih (before ++ [a])
      rw [List.map_append] at this
      exact this _
  unfold vals both
  rw [List.filterMap_map]
  congr 1
  funext p
  change (if (p.2.map (tagStat f)).length < 3 then none
    else some (p.1, Knn.finishWeight (p.2.map (tagStat f)).length (Knn.accOuter (both f id w) d [] (p.2.map (tagStat f)) (0, 0)))) = _
  have := hout p.2 [] (0, 0)
  rw [List.map_nil] at this
  rw [List.length_map, this]

theorem white_tag (hf : StrictMono f) (ids : List String) (ms : List RadioData) :
    Knn.getWhitelistedMeasurements (ids.map f) (ms.map (tag f)) = (Knn.getWhitelistedMeasurements ids ms).map (tag f) := by
  unfold Knn.getWhitelistedMeasurements
  rw [List.filter_map]
  congr 1
  refine List.filter_congr (fun m _ => ?_)
  rw [Bool.eq_iff_iff]
  change (ids.map f).contains (f m.id) = true ↔ _
  rw [List.contains_iff_mem, List.contains_iff_mem, List.mem_map_of_injective hf.injective]

theorem radiomap_tag (hf : StrictMono f) (b : Bool) (maps : List (String × List Knn.Fingerprint)) (c : LevelCollector) (ms : List RadioData) :
    Knn.detectByRadiomap b (vals (List.map (tagPrint f)) maps) (tagMap f c) (ms.map (tag f)) = Knn.detectByRadiomap b maps c ms := by
  have hfil : ∀ (fps : List Knn.Fingerprint) (m : RadioData),
      (fps.map (tagPrint f)).filter (fun q => q.tx == (tag f m).id) = (fps.filter (fun q => q.tx == m.id)).map (tagPrint f) := by
    intro fps m
    rw [List.filter_map]
    congr 1
    refine List.filter_congr (fun q _ => ?_)
    rw [Bool.eq_iff_iff, beq_iff_eq]
    change (f q.tx == f m.id) = true ↔ _
    rw [beq_iff_eq]
    exact hf.injective.eq_iff
  have hstep : ∀ (fps : List Knn.Fingerprint) (a : ℝ × ℕ) (m : RadioData),
      Knn.calcWeightStep (fps.map (tagPrint f)) a (tag f m) = Knn.calcWeightStep fps a m := by
    intro fps a m
    unfold Knn.calcWeightStep
    dsimp only
    rw [hfil, List.foldl_map, List.length_map]
    rfl
  have hcalc : ∀ fps : List Knn.Fingerprint, Knn.calcWeight (ms.map (tag f)) (fps.map (tagPrint f)) = Knn.calcWeight ms fps := by
    intro fps
    unfold Knn.calcWeight
    dsimp only
    rw [List.foldl_map]
    simp only [hstep]
  have hbest : ∀ fps : List Knn.Fingerprint, Knn.calcWeightBestRp (ms.map (tag f)) (fps.map (tagPrint f)) = Knn.calcWeightBestRp ms fps := by
    intro fps
    unfold Knn.calcWeightBestRp
    rw [rpWeights_tag hf]
  unfold Knn.detectByRadiomap
  congr 1
  change (c.levels.map (tagLevel f)).foldlM _ _ = _
  rw [List.foldlM_map]
  congr 1
  funext best l
  unfold Knn.detectStep
  change (match StdMap.find? (vals (List.map (tagPrint f)) maps) l.id with | none => none | some rm => _) = _
  rw [find_vals]
  cases StdMap.find? maps l.id with
  | none => rfl
  | some rm =>
    simp only [Option.map_some]
    rw [hcalc, hbest]
    rfl

/-- The estimator by fingerprints. -/
def tagKnn (f : String → String) (k : Knn.Cfg) : Knn.Cfg :=
  { k with refTransmitters := vals (List.map f) k.refTransmitters, radiomaps := vals (List.map (tagPrint f)) k.radiomaps }

theorem mkKnn_tag (hf : StrictMono f) (s : Triang.Sorts) (sort : List (String × ℝ) → List (String × ℝ)) (c : LevelCollector) (cs : CommonSettings) :
    Knn.mkCfg s sort (tagMap f c) cs = tagKnn f (Knn.mkCfg s sort c cs) := by
  unfold Knn.mkCfg tagKnn
  rw [triangulate_tag, refs_tag hf, radiomaps_tag]

theorem knn_tag (hf : StrictMono f) (k : Knn.Cfg) (p : Position) (l : Level) (ts : Int) (ms : List RadioData) :
    Knn.calculatePosition (tagKnn f k) p (tagLevel f l) ts (ms.map (tag f)) = Knn.calculatePosition k p l ts ms := by
  unfold Knn.calculatePosition
  have e1 : (tagLevel f l).id = l.id := rfl
  have e2 : (tagKnn f k).refTransmitters = vals (List.map f) k.refTransmitters := rfl
  have e3 : (tagKnn f k).radiomaps = vals (List.map (tagPrint f)) k.radiomaps := rfl
  rw [List.isEmpty_map, e1, e2, e3, find_vals, find_vals]
  by_cases h0 : ms.isEmpty = true
  · rw [if_pos h0, if_pos h0]
  rw [if_neg h0, if_neg h0]
  cases StdMap.find? k.refTransmitters l.id with
  | none => rfl
  | some ids =>
    simp only [Option.map_some]
    rw [white_tag hf, List.length_map]
    cases StdMap.find? k.radiomaps l.id with
    | none => rfl
    | some sm =>
      simp only [Option.map_some]
      rw [rpWeights_tag hf]
      simp only [inTriangle_tag, heaviest_tag]
      rfl

/-! ## Zones -/

theorem zone_tag (hf : StrictMono f) (A B : List (String × ℝ)) (l : Level) (ts : Int) (ms : List RadioData) :
    Estim.zonePosition A B (tagLevel f l) ts (ms.map (tag f)) = Estim.zonePosition A B l ts ms := by
  have hs : ∀ ms : List RadioData, Estim.strongest (ms.map (tag f)) = (Estim.strongest ms).map (tag f) := by
    intro ms
    cases ms with
    | nil => rfl
    | cons m ms =>
      unfold Estim.strongest
      simp only [List.map_cons, Option.map_some, Option.some.injEq]
      induction ms generalizing m with
      | nil => rfl
      | cons x ms ih =>
        rw [List.map_cons, List.foldl_cons, List.foldl_cons, ← ih]
        congr 1
        change (if m.rssi < x.rssi then tag f x else tag f m) = tag f (if m.rssi < x.rssi then x else m)
        split_ifs <;> rfl
  unfold Estim.zonePosition
  rw [filter_tag hf, hs, List.isEmpty_map]
  split_ifs
  · rfl
  cases Estim.strongest (getLevelRadioMeasurements RadioData.id l ms) with
  | none => rfl
  | some m =>
    simp only [Option.map_some]
    have h1 : (tagLevel f l).containsTransmitter (tag f m).id = l.containsTransmitter m.id := contains_tag hf l m.id
    have h2 : (tagLevel f l).transmitter (tag f m).id = (l.transmitter m.id).map (tagTransmitter f) := transmitter_tag hf l m.id
    rw [h1, h2]
    cases l.transmitter m.id with
    | none => rfl
    | some t => rfl

theorem params_tag (sets : List (String × Estim.LevelSettings)) (c : LevelCollector) :
    Estim.zoneParams sets (tagMap f c) = Estim.zoneParams sets c := by
  unfold Estim.zoneParams
  change (c.levels.map (tagLevel f)).foldlM _ _ = _
  rw [List.foldlM_map]
  rfl

/-! ## Altitude -/

theorem txPoint_tag (hf : StrictMono f) (l : Level) (id : String) : Trilat.txPoint (tagLevel f l) (f id) = Trilat.txPoint l id := by
  unfold Trilat.txPoint
  rw [transmitter_tag hf, Option.map_map]
  rfl

theorem pushBad_tag (hf : StrictMono f) (l : Level) (p : XYZPoint) (m : RadioData) (ms : List RadioData) :
    Trilat.pushBad (tagLevel f l) p (tag f m) (ms.map (tag f)) = (Trilat.pushBad l p m ms).map (List.map (tag f)) := by
  induction ms with
  | nil => rfl
  | cons a ms ih =>
    rw [List.map_cons]
    unfold Trilat.pushBad
    have : Trilat.txPoint (tagLevel f l) (tag f a).id = Trilat.txPoint l a.id := txPoint_tag hf l a.id
    rw [ih, this]
    cases Trilat.txPoint l a.id <;> cases Trilat.pushBad l p m ms <;> try rfl
    simp only [Option.map_some, Option.some.injEq]
    change (if Trilat.delta _ _ > m.distance + a.distance then _ else _) = List.map (tag f) (if Trilat.delta _ _ > m.distance + a.distance then _ else _)
    split_ifs <;> rfl

theorem badLoop_tag (hf : StrictMono f) (l : Level) (all ms bad : List RadioData) :
    Trilat.badLoop (tagLevel f l) (all.map (tag f)) (ms.map (tag f)) (bad.map (tag f)) =
      (Trilat.badLoop l all ms bad).map (List.map (tag f)) := by
  induction ms generalizing bad with
  | nil => rfl
  | cons a ms ih =>
    rw [List.map_cons]
    unfold Trilat.badLoop
    have h1 : Trilat.txPoint (tagLevel f l) (tag f a).id = Trilat.txPoint l a.id := txPoint_tag hf l a.id
    have h2 : (tag f a).id ∈ (bad.map (tag f)).map RadioData.id ↔ a.id ∈ bad.map RadioData.id := by
      rw [List.map_map]
      have : bad.map (RadioData.id ∘ tag f) = (bad.map RadioData.id).map f := by rw [List.map_map]; rfl
      rw [this]
      exact List.mem_map_of_injective hf.injective
    simp only [h2, h1]
    split_ifs
    · exact ih bad
    · cases Trilat.txPoint l a.id with
      | none => rfl
      | some p =>
        dsimp only
        rw [pushBad_tag hf]
        cases Trilat.pushBad l p a all with
        | none => rfl
        | some new =>
          simp only [Option.map_some]
          rw [← List.map_append]
          exact ih _

theorem intersected_tag (hf : StrictMono f) {sort : List RadioData → List RadioData} (hs : ∀ l, sort (l.map (tag f)) = (sort l).map (tag f))
    (l : Level) (ms : List RadioData) :
    Trilat.getIntersected sort (tagLevel f l) (ms.map (tag f)) = (Trilat.getIntersected sort l ms).map (List.map (tag f)) := by
  unfold Trilat.getIntersected
  dsimp only
  rw [hs]
  have := badLoop_tag hf l (sort ms) (sort ms) []
  rw [List.map_nil] at this
  rw [this, Option.map_map, Option.map_map]
  congr 1
  funext bad
  change (bad.map (tag f)).foldl _ _ = List.map (tag f) (bad.foldl _ _)
  generalize sort ms = new
  induction bad generalizing new with
  | nil => rfl
  | cons b bad ih =>
    rw [List.map_cons, List.foldl_cons, List.foldl_cons, ← ih, List.filter_map]
    congr 2
    refine List.filter_congr (fun e _ => ?_)
    change decide (¬ f b.id = f e.id) = decide (¬ b.id = e.id)
    rw [decide_eq_decide, hf.injective.eq_iff]

theorem altitudeSum_tag (hf : StrictMono f) (l : Level) (x y : ℝ) (ms : List RadioData) (acc : Option ℝ × Bool) :
    Trilat.altitudeSum (tagLevel f l) x y (ms.map (tag f)) acc = Trilat.altitudeSum l x y ms acc := by
  induction ms generalizing acc with
  | nil => rfl
  | cons a ms ih =>
    rw [List.map_cons]
    unfold Trilat.altitudeSum
    have h1 : Trilat.txPoint (tagLevel f l) (tag f a).id = Trilat.txPoint l a.id := txPoint_tag hf l a.id
    simp only [h1, ih]
    rfl

theorem altitude_tag (hf : StrictMono f) {sort : List RadioData → List RadioData} (hs : ∀ l, sort (l.map (tag f)) = (sort l).map (tag f))
    (solve : List Trilat.Row → XYZPoint) (l : Level) (ms : List RadioData) :
    Trilat.calculateAltitude sort solve (tagLevel f l) (ms.map (tag f)) = Trilat.calculateAltitude sort solve l ms := by
  unfold Trilat.calculateAltitude
  rw [filter_tag hf, intersected_tag hf hs]
  cases Trilat.getIntersected sort l (getLevelRadioMeasurements RadioData.id l ms) with
  | none => rfl
  | some ns =>
    simp only [Option.map_some]
    rw [List.length_map]
    split_ifs
    · rfl
    cases ns with
    | nil => rfl
    | cons m rest =>
      rw [List.map_cons]
      dsimp only
      have h1 : Trilat.txPoint (tagLevel f l) (tag f m).id = Trilat.txPoint l m.id := txPoint_tag hf l m.id
      have h2 : (rest.map (tag f)).mapM (fun m => (Trilat.txPoint (tagLevel f l) m.id).map (fun p => (p, m.distance))) =
          rest.mapM (fun m => (Trilat.txPoint l m.id).map (fun p => (p, m.distance))) := by
        rename_i h4
        clear h4
        induction rest with
        | nil => rfl
        | cons a rest ih =>
          rw [List.map_cons, List.mapM_cons, List.mapM_cons, ih]
          have h1 : Trilat.txPoint (tagLevel f l) (tag f a).id = Trilat.txPoint l a.id := txPoint_tag hf l a.id
          rw [h1]
          rfl
      rw [h1, h2, ← List.map_cons]
      simp only [altitudeSum_tag hf]
      rfl

end Verif.Tag
