import Verif.Label.Spec

/-!
# Lemmas for C153
-/

namespace Verif.Label

open Verif.Levels Verif.Nav
open Verif.Geo (XYPoint GeoPoint)
open Verif.Knn (Result)

variable {f : String → String}

/-! ## Results -/

/-- Both results are related, or both failed in the same way. -/
def Alike {α β : Type} (R : α → β → Prop) : Result α → Result β → Prop
  | .ok a, .ok b => R a b
  | .throws, .throws => True
  | .undefined, .undefined => True
  | _, _ => False

theorem alike_then {α β γ δ : Type} {R : α → β → Prop} {S : γ → δ → Prop} {a : Result α} {b : Result β} {g : α → Result γ}
    {h : β → Result δ} (hab : Alike R a b) (hgh : ∀ x y, R x y → Alike S (g x) (h y)) : Alike S (andThen a g) (andThen b h) := by
  cases a <;> cases b <;> simp only [Alike] at hab <;> simp only [andThen]
  · exact hgh _ _ hab
  · trivial
  · trivial

theorem alike_throw {α β : Type} {R : α → β → Prop} {a : Option α} {g : α → β} (h : ∀ x, R x (g x)) :
    Alike R (orThrow a) (orThrow (a.map g)) := by
  cases a with
  | none => trivial
  | some x => exact h x

theorem alike_undefined {α β : Type} {R : α → β → Prop} {a : Option α} {g : α → β} (h : ∀ x, R x (g x)) :
    Alike R (orUndefined a) (orUndefined (a.map g)) := by
  cases a with
  | none => trivial
  | some x => exact h x

theorem alike_same {α : Type} (a : Result α) : Alike (fun x y => y = x) a a := by
  cases a <;> simp [Alike]

/-! ## Tables -/

theorem same_insert {ν : Type} (hf : Renaming f) {m m' : List (String × ν)} (h : SameEntries f m m') (k : String) (v : ν) :
    SameEntries f (StdMap.insert m k v) (StdMap.insert m' (f k) v) := by
  intro j
  rw [StdMap.find?_insert, StdMap.find?_insert, h, h]
  by_cases e : k = j
  · rw [if_pos e, if_pos (by rw [e])]
  · rw [if_neg e, if_neg (fun c => e (hf.injective c))]

theorem same_set {ν : Type} (hf : Renaming f) {m m' : List (String × ν)} (h : SameEntries f m m') (k : String) (v : ν) :
    SameEntries f (StdMap.set m k v) (StdMap.set m' (f k) v) := by
  intro j
  rw [StdMap.find?_set, StdMap.find?_set, h]
  by_cases e : k = j
  · rw [if_pos e, if_pos (by rw [e])]
  · rw [if_neg e, if_neg (fun c => e (hf.injective c))]

theorem same_nil {ν : Type} : SameEntries f ([] : List (String × ν)) [] := fun _ => rfl

/-! ## The map -/

theorem level_label {c c' : LevelCollector} (h : SameMap f c c') (id : String) : level c' (f id) = (level c id).map (relabel f) := by
  unfold level
  rw [h.indices, h.levels]
  cases StdMap.find? c.indices id with
  | none => rfl
  | some i => simp

theorem has_label {c c' : LevelCollector} (h : SameMap f c c') (id : String) : hasLevel c' (f id) = hasLevel c id := by
  unfold hasLevel
  rw [h.indices]

theorem find_label {c c' : LevelCollector} (h : SameMap f c c') (tx : String) :
    findLevelByTransmitterId c' tx = (findLevelByTransmitterId c tx).map f := by
  unfold findLevelByTransmitterId
  rw [h.levels, List.find?_map, Option.map_map, Option.map_map]
  rfl

theorem add_label (hf : Renaming f) {c c' : LevelCollector} (h : SameMap f c c') (l : Level) :
    SameMap f (addLevel c l) (addLevel c' (relabel f l)) := by
  refine ⟨?_, ?_⟩
  · simp [addLevel, h.levels]
  · unfold addLevel
    simp only [h.levels, List.length_append, List.length_map]
    exact same_insert hf h.indices _ _

/-! ## Radio -/

theorem supported_label {c c' : LevelCollector} (h : SameMap f c c') (cs : CommonSettings) (tx : String) :
    Radio.isTransmitterSupported (Radio.mkCfg c' cs) tx = Radio.isTransmitterSupported (Radio.mkCfg c cs) tx := by
  unfold Radio.isTransmitterSupported
  change (match findLevelByTransmitterId c' tx with | none => _ | some levelId => _) =
    (match findLevelByTransmitterId c tx with | none => _ | some levelId => _)
  rw [find_label h]
  cases findLevelByTransmitterId c tx with
  | none => rfl
  | some id =>
    simp only [Option.map_some]
    change (if !hasLevel c' (f id) then _ else match level c' (f id) with | none => _ | some l => _) =
      (if !hasLevel c id then _ else match level c id with | none => _ | some l => _)
    rw [has_label h, level_label h]
    cases level c id with
    | none => rfl
    | some l => rfl

theorem update_label {c c' : LevelCollector} (h : SameMap f c c') (cs : CommonSettings) (s : Radio.State) (m : Measurement) :
    Radio.updateMeasurements (Radio.mkCfg c' cs) s m = Radio.updateMeasurements (Radio.mkCfg c cs) s m := by
  have hv : ∀ d, Radio.getValidSignalEntry (Radio.mkCfg c' cs) d = Radio.getValidSignalEntry (Radio.mkCfg c cs) d := by
    intro d
    unfold Radio.getValidSignalEntry
    dsimp only
    rw [supported_label h]
    have e : (findLevelByTransmitterId (Radio.mkCfg c' cs).levelIndex d.id).isSome =
        (findLevelByTransmitterId (Radio.mkCfg c cs).levelIndex d.id).isSome := by
      change (findLevelByTransmitterId c' d.id).isSome = (findLevelByTransmitterId c d.id).isSome
      rw [find_label h, Option.isSome_map]
    rw [e]
    rfl
  unfold Radio.updateMeasurements
  dsimp only
  cases m.data with
  | radio d =>
    dsimp only
    rw [hv]
    rfl
  | sensor d => rfl
  | nmea d => rfl

theorem distance_label {c c' : LevelCollector} (h : SameMap f c c') (cs : CommonSettings) (d : RadioData) :
    Radio.withDistance (Radio.mkCfg c' cs) d = Radio.withDistance (Radio.mkCfg c cs) d := by
  unfold Radio.withDistance
  change (if d.type ≠ .WIFI_RTT then (match findLevelByTransmitterId c' d.id with | none => _ | some levelId => _) else _) =
    (if d.type ≠ .WIFI_RTT then (match findLevelByTransmitterId c d.id with | none => _ | some levelId => _) else _)
  rw [find_label h]
  cases findLevelByTransmitterId c d.id with
  | none => rfl
  | some id =>
    simp only [Option.map_some]
    change (if d.type ≠ .WIFI_RTT then (match level c' (f id) with | none => _ | some l => _) else _) =
      (if d.type ≠ .WIFI_RTT then (match level c id with | none => _ | some l => _) else _)
    rw [level_label h]
    cases level c id with
    | none => rfl
    | some l => rfl

theorem extract_label {c c' : LevelCollector} (h : SameMap f c c') (sorts : Radio.Sorts) (cs : CommonSettings) (s : Radio.State) (t : Int) :
    Radio.extractRadioMeasurements sorts (Radio.mkCfg c' cs) s t = Radio.extractRadioMeasurements sorts (Radio.mkCfg c cs) s t := by
  unfold Radio.extractRadioMeasurements
  have e : Radio.withDistance (Radio.mkCfg c' cs) = Radio.withDistance (Radio.mkCfg c cs) := funext (distance_label h cs)
  rw [e]
  rfl

/-! ## The level -/

/-- The estimators of the level. -/
structure SameEstimator (f : String → String) (e e' : LevelEst.Estimator) : Prop where
  current : e'.history.current = f e.history.current
  isInitialized : e'.history.isInitialized = e.history.isInitialized
  counts : SameEntries f e.history.floorCnt e'.history.floorCnt
  barometer : e'.barometer = { e.barometer with lastKnownLevel := f e.barometer.lastKnownLevel }

theorem history_label (hf : Renaming f) {h h' : LevelEst.History} (e1 : h'.current = f h.current)
    (e2 : h'.isInitialized = h.isInitialized) (e3 : SameEntries f h.floorCnt h'.floorCnt) (d : String) :
    (LevelEst.detectLevelUsingHistory h' (f d)).1 = f (LevelEst.detectLevelUsingHistory h d).1 ∧
      (LevelEst.detectLevelUsingHistory h' (f d)).2.current = f (LevelEst.detectLevelUsingHistory h d).2.current ∧
      (LevelEst.detectLevelUsingHistory h' (f d)).2.isInitialized = (LevelEst.detectLevelUsingHistory h d).2.isInitialized ∧
      SameEntries f (LevelEst.detectLevelUsingHistory h d).2.floorCnt (LevelEst.detectLevelUsingHistory h' (f d)).2.floorCnt := by
  unfold LevelEst.detectLevelUsingHistory
  by_cases hd : d = ""
  · rw [if_pos hd, if_pos (by rw [hd, hf.empty])]
    exact ⟨e1, e1, e2, e3⟩
  · have hd' : f d ≠ "" := fun c => hd (hf.injective (c.trans hf.empty.symm))
    rw [if_neg hd, if_neg hd']
    dsimp only
    rw [e2]
    have hc : ∀ b : Bool, LevelEst.countAt (if b then h' else { h' with isInitialized := true, current := f d }).floorCnt (f d) =
        LevelEst.countAt (if b then h else { h with isInitialized := true, current := d }).floorCnt d := by
      intro b
      unfold LevelEst.countAt
      cases b <;> simp [e3 d]
    rw [hc]
    cases h.isInitialized <;> simp only [Bool.false_eq_true, if_true, if_false] <;> split_ifs
    · exact ⟨rfl, rfl, rfl, same_set hf same_nil _ _⟩
    · exact ⟨rfl, rfl, rfl, same_set hf e3 _ _⟩
    · exact ⟨rfl, rfl, e2, same_set hf same_nil _ _⟩
    · exact ⟨e1, e1, e2, same_set hf e3 _ _⟩

/-- The barometer with the new names. -/
def renB (f : String → String) (b : LevelEst.Barometer) : LevelEst.Barometer := { b with lastKnownLevel := f b.lastKnownLevel }

theorem barometer_label (hf : Renaming f) (b : LevelEst.Barometer) (id : String) (m : SensorMeasurement) :
    LevelEst.checkLevelChange (renB f b) (f id) m =
      (f (LevelEst.checkLevelChange b id m).1, renB f (LevelEst.checkLevelChange b id m).2) := by
  have h1 : LevelEst.updateBuffers (renB f b) m = renB f (LevelEst.updateBuffers b m) := by
    unfold LevelEst.updateBuffers renB
    dsimp only
    split_ifs <;> rfl
  have h2 : ∀ b : LevelEst.Barometer, LevelEst.updateLevel (renB f b) (f id) = renB f (LevelEst.updateLevel b id) := by
    intro b
    unfold LevelEst.updateLevel
    have e : (renB f b).lastKnownLevel ≠ f id ↔ b.lastKnownLevel ≠ id := not_congr hf.injective.eq_iff
    simp only [e]
    unfold renB
    dsimp only
    split_ifs <;> rfl
  unfold LevelEst.checkLevelChange
  dsimp only
  rw [h1, h2]
  change (if !b.isInitialized then _ else _) = _
  cases b.isInitialized <;> rfl

theorem calculate_label (hf : Renaming f) {e e' : LevelEst.Estimator} (h : SameEstimator f e e') (ub : Bool) (d : String)
    (m : SensorMeasurement) : (LevelEst.calculateLevel ub e' (f d) m).1 = f (LevelEst.calculateLevel ub e d m).1 ∧
      SameEstimator f (LevelEst.calculateLevel ub e d m).2 (LevelEst.calculateLevel ub e' (f d) m).2 := by
  obtain ⟨h1, h2, h3, h4⟩ := history_label hf h.current h.isInitialized h.counts d
  unfold LevelEst.calculateLevel
  dsimp only
  cases ub with
  | false => exact ⟨h1, h2, h3, h4, h.barometer⟩
  | true =>
    simp only [if_true]
    have hb := barometer_label hf e.barometer (LevelEst.detectLevelUsingHistory e.history d).1 m
    rw [h.barometer, h1]
    change (LevelEst.checkLevelChange (renB f e.barometer) _ m).1 = _ ∧ _
    refine ⟨by rw [hb], h2, h3, h4, ?_⟩
    change (LevelEst.checkLevelChange (renB f e.barometer) _ m).2 = _
    rw [hb]
    rfl

theorem foldlM_label (g : ℝ × String → Level → Option (ℝ × String)) (g' : ℝ × String → Level → Option (ℝ × String))
    (h : ∀ b l, g' (b.1, f b.2) (relabel f l) = (g b l).map (fun r => (r.1, f r.2))) (ls : List Level) (b : ℝ × String) :
    (ls.map (relabel f)).foldlM g' (b.1, f b.2) = (ls.foldlM g b).map (fun r => (r.1, f r.2)) := by
  induction ls generalizing b with
  | nil => rfl
  | cons l ls ih =>
    rw [List.map_cons, List.foldlM_cons, List.foldlM_cons, h]
    cases g b l with
    | none => rfl
    | some r => exact ih r

theorem transmitters_label (hf : Renaming f) {c c' : LevelCollector} (h : SameMap f c c') (p : Bool) (radio : List RadioData) :
    LevelEst.detectByTransmitters p c' radio = (LevelEst.detectByTransmitters p c radio).map f := by
  have hg : ∀ (b : ℝ × String) (l : Level), LevelEst.detectStep p radio (b.1, f b.2) (relabel f l) =
      (LevelEst.detectStep p radio b l).map (fun r => (r.1, f r.2)) := by
    intro b l
    unfold LevelEst.detectStep
    change (if (getLevelRadioMeasurements RadioData.id l radio).isEmpty then _ else
      match LevelEst.levelCost p radio (getLevelRadioMeasurements RadioData.id l radio) l with | none => _ | some a => _) = _
    dsimp only
    split_ifs
    · rfl
    · cases LevelEst.levelCost p radio (getLevelRadioMeasurements RadioData.id l radio) l with
      | none => rfl
      | some a =>
        simp only [Option.map_some]
        split_ifs <;> rfl
  unfold LevelEst.detectByTransmitters
  have := foldlM_label (f := f) (LevelEst.detectStep p radio) (LevelEst.detectStep p radio) hg c.levels (-1000, "")
  rw [hf.empty] at this
  rw [h.levels, this]
  cases c.levels.foldlM (LevelEst.detectStep p radio) (-1000, "") <;> rfl

theorem radiomap_label (hf : Renaming f) {c c' : LevelCollector} (h : SameMap f c c') (b : Bool)
    {maps maps' : List (String × List Knn.Fingerprint)} (hm : SameEntries f maps maps') (radio : List RadioData) :
    Knn.detectByRadiomap b maps' c' radio = (Knn.detectByRadiomap b maps c radio).map f := by
  have hg : ∀ (p : ℝ × String) (l : Level), Knn.detectStep b maps' radio (p.1, f p.2) (relabel f l) =
      (Knn.detectStep b maps radio p l).map (fun r => (r.1, f r.2)) := by
    intro p l
    unfold Knn.detectStep
    change (match StdMap.find? maps' (f l.id) with | none => _ | some rm => _) = _
    rw [hm]
    cases StdMap.find? maps l.id with
    | none => rfl
    | some rm =>
      simp only [Option.map_some]
      split_ifs <;> rfl
  unfold Knn.detectByRadiomap
  have := foldlM_label (f := f) (Knn.detectStep b maps radio) (Knn.detectStep b maps' radio) hg c.levels (0, "")
  rw [hf.empty] at this
  rw [h.levels, this]
  cases c.levels.foldlM (Knn.detectStep b maps radio) (0, "") <;> rfl

/-! ## Places -/

/-- The place with the new name of the floor. -/
def ren (f : String → String) (p : Position) : Position := { p with levelId := f p.levelId }

theorem ren_default (hf : Renaming f) : ren f Position.default = Position.default := by
  unfold ren Position.default
  simp only [hf.empty]

/-- The estimator of satellite places with the new names. -/
def renO (f : String → String) (s : Estim.OutdoorState) : Estim.OutdoorState := { s with last := ren f s.last }

theorem outdoorLevels_label (hf : Renaming f) (cs : CommonSettings) (st : Estim.OutdoorState) (g : Estim.GpsPosition) (sats : Int)
    (ls : List Level) : Estim.outdoorLevels cs (renO f st) g sats (ls.map (relabel f)) =
      (Estim.outdoorLevels cs st g sats ls).map (fun r => (ren f r.1, renO f r.2)) := by
  induction ls with
  | nil =>
    simp only [List.map_nil, Estim.outdoorLevels, Option.map_some, ren_default hf]
  | cons l ls ih =>
    rw [List.map_cons]
    unfold Estim.outdoorLevels
    rw [ih]
    have hl : (relabel f l).bindingPoint = l.bindingPoint ∧ (relabel f l).geometry = l.geometry ∧ (renO f st).last.ts = st.last.ts ∧
      (renO f st).buf = st.buf ∧ (relabel f l).id = f l.id := ⟨rfl, rfl, rfl, rfl, rfl⟩
    obtain ⟨h1, h2, h3, h4, h5⟩ := hl
    dsimp only
    rw [h1, h2, h3, h4, h5]
    by_cases hc : Estim.Box.Covers l.geometry.boundingBox (Geo.gpsToLocal ⟨g.latitude, g.longitude⟩ l.bindingPoint) ∨
        cs.useGpsOutsideMap = true
    · rw [if_pos hc, if_pos hc]
      generalize (if g.ts ≠ st.last.ts then (if cs.useGpsSigmaFilter = true then
        Estim.sigmaAdd cs.sigmaFilterWindow cs.sigmaFilterDelta st.buf (Geo.gpsToLocal ⟨g.latitude, g.longitude⟩ l.bindingPoint)
        else some (true, st.buf)) else some (true, st.buf)) = check
      cases check with
      | none => rfl
      | some r =>
        obtain ⟨v, buf⟩ := r
        dsimp only
        split_ifs
        · simp only [Option.map_some, ren_default hf]
          rfl
        · rfl
    · rw [if_neg hc, if_neg hc]

theorem outdoor_label (hf : Renaming f) {c c' : LevelCollector} (h : SameMap f c c') (cs : CommonSettings) (st : Estim.OutdoorState) (ts : Int)
    (m : SensorMeasurement) (n : NmeaMeasurement) (b : Bool) : Estim.outdoorPosition cs c' (renO f st) ts m n b =
      (Estim.outdoorPosition cs c st ts m n b).map (fun r => (ren f r.1, renO f r.2)) := by
  have ha : ∀ st : Estim.OutdoorState, (if ((ts - (renO f st).last.ts : Int) : ℝ) / 1000 > cs.gpsValidTimeWindowSec then
        some (Position.default, renO f st) else some ((renO f st).last, renO f st)) =
      (if ((ts - st.last.ts : Int) : ℝ) / 1000 > cs.gpsValidTimeWindowSec then some (Position.default, st) else some (st.last, st)).map
        (fun r => (ren f r.1, renO f r.2)) := by
    intro st
    change (if ((ts - st.last.ts : Int) : ℝ) / 1000 > cs.gpsValidTimeWindowSec then _ else _) = _
    split_ifs
    · simp only [Option.map_some, ren_default hf]
    · rfl
  unfold Estim.outdoorPosition
  dsimp only
  rw [h.levels]
  cases Estim.extractGpsPosition cs ts m with
  | none =>
    dsimp only
    by_cases hb : b = true ∨ False
    · rw [if_pos hb, if_pos hb]
      exact ha { st with buf := [] }
    · rw [if_neg hb, if_neg hb]
      exact ha st
  | some g =>
    dsimp only
    split_ifs
    · exact outdoorLevels_label hf cs { st with buf := [] } g _ c.levels
    · exact outdoorLevels_label hf cs st g _ c.levels

end Verif.Label
