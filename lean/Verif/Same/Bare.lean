import Verif.Nav.Model

/-!
# C130, C131: what the estimators do not read of a signal
-/

namespace Verif.Same

open Verif Verif.Levels Verif.Nav
open Verif.Knn (Result)

/-- A signal without its distance and the deviation of the distance, and without its power if `p` is zero. -/
noncomputable def bare (p : ℝ) (m : RadioData) : RadioData := { m with distance := 0, stddev := 0, power := p * m.power }

variable (p : ℝ)

theorem filter_bare (f : String → Bool) (l : List RadioData) : ((l.map (bare p)).filter fun m => f m.id) = (l.filter fun m => f m.id).map (bare p) := by
  rw [List.filter_map]
  rfl

theorem empty_bare (l : List RadioData) : (l.map (bare p)).isEmpty = l.isEmpty := by cases l <;> rfl

theorem strongest_bare (l : List RadioData) : Estim.strongest (l.map (bare p)) = (Estim.strongest l).map (bare p) := by
  cases l with
  | nil => rfl
  | cons m ms =>
    simp only [Estim.strongest, List.map_cons, Option.map_some, Option.some.injEq]
    induction ms generalizing m with
    | nil => rfl
    | cons u ms ih =>
      rw [List.map_cons, List.foldl_cons, List.foldl_cons, ← ih]
      congr 1
      have e1 : (bare p m).rssi = m.rssi := rfl
      have e2 : (bare p u).rssi = u.rssi := rfl
      rw [e1, e2]
      split_ifs <;> rfl

theorem zone_bare (A B : List (String × ℝ)) (level : Level) (ts : Int) (msr : List RadioData) :
    Estim.zonePosition A B level ts (msr.map (bare p)) = Estim.zonePosition A B level ts msr := by
  unfold Estim.zonePosition getLevelRadioMeasurements
  rw [empty_bare, filter_bare, strongest_bare]
  cases Estim.strongest (msr.filter fun m => level.containsTransmitter m.id) <;> rfl

theorem transmitters_bare (tx : Bool) (c : LevelCollector) (msr : List RadioData) :
    LevelEst.detectByTransmitters tx c (msr.map (bare p)) = LevelEst.detectByTransmitters tx c msr := by
  have e : LevelEst.detectStep tx (msr.map (bare p)) = LevelEst.detectStep tx msr := by
    funext best l
    unfold LevelEst.detectStep LevelEst.levelCost LevelEst.getAverageRssi LevelEst.getAverageA getLevelRadioMeasurements
    rw [filter_bare]
    dsimp only
    rw [empty_bare]
    simp only [List.foldl_map, List.foldlM_map, List.length_map]
    rfl
  unfold LevelEst.detectByTransmitters
  rw [e]

theorem weight_bare (msr : List RadioData) (fps : List Knn.Fingerprint) : Knn.calcWeight (msr.map (bare p)) fps = Knn.calcWeight msr fps := by
  unfold Knn.calcWeight
  rw [List.foldl_map]
  rfl

theorem rpWeights_bare (fps : List Knn.Fingerprint) (msr : List RadioData) (b : Bool) :
    Knn.calcRpWeightsKnn fps (msr.map (bare 1)) b = Knn.calcRpWeightsKnn fps msr b := by
  have e : ∀ m, Knn.trust (bare 1 m) = Knn.trust m := by
    intro m
    simp only [Knn.trust, bare, one_mul]
  unfold Knn.calcRpWeightsKnn Knn.calcTransmittersWeights Knn.rpStatistics
  rw [List.foldl_map, List.foldl_map]
  simp only [e]
  rfl

theorem radiomap_bare (best : Bool) (maps : List (String × List Knn.Fingerprint)) (c : LevelCollector) (msr : List RadioData)
    (hp : p = 1 ∨ best = false) : Knn.detectByRadiomap best maps c (msr.map (bare p)) = Knn.detectByRadiomap best maps c msr := by
  have e : Knn.detectStep best maps (msr.map (bare p)) = Knn.detectStep best maps msr := by
    funext x l
    unfold Knn.detectStep Knn.calcWeightBestRp
    rcases hp with rfl | rfl
    · simp only [rpWeights_bare, weight_bare]
    · simp only [weight_bare, Bool.false_eq_true, if_false]
  unfold Knn.detectByRadiomap
  rw [e]

theorem knn_bare (k : Knn.Cfg) (pos : Position) (level : Level) (ts : Int) (msr : List RadioData) :
    Knn.calculatePosition k pos level ts (msr.map (bare 1)) = Knn.calculatePosition k pos level ts msr := by
  unfold Knn.calculatePosition
  rw [empty_bare]
  have e : ∀ ids, Knn.getWhitelistedMeasurements ids (msr.map (bare 1)) = (Knn.getWhitelistedMeasurements ids msr).map (bare 1) :=
    fun ids => filter_bare 1 _ msr
  simp only [e, List.length_map, rpWeights_bare]

/-- Without triangles the weights of the reference points are not used (C31). -/
theorem heaviest_weights (sort : List (String × ℝ) → List (String × ℝ)) (rm : Radiomap) (w w' : List (String × ℝ)) (k k' : ℕ) :
    Knn.calcKHeaviest sort rm w k = Knn.calcKHeaviest sort rm w' k' := rfl

/-- Two estimators by fingerprints that differ in the number of neighbours, and in the difference mode if triangles are not used. -/
theorem knn_settings (k : Knn.Cfg) (n : ℕ) (b : Bool) (hb : k.useTriangles = true → b = k.useDiffMode) (pos : Position) (level : Level)
    (ts : Int) (msr : List RadioData) :
    Knn.calculatePosition { k with k := n, useDiffMode := b } pos level ts msr = Knn.calculatePosition k pos level ts msr := by
  cases ht : k.useTriangles with
  | true =>
    have := hb ht
    subst this
    unfold Knn.calculatePosition
    simp only [ht, if_true]
  | false =>
    unfold Knn.calculatePosition
    simp only [ht, Bool.false_eq_true, if_false]
    rfl

end Verif.Same
