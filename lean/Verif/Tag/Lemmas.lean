import Verif.Tag.Spec
import Verif.Label.Lemmas

/-!
# Lemmas for C155
-/

namespace Verif.Tag

open Verif.Levels Verif.Nav
open Verif.Geo (XYPoint GeoPoint)
open Verif.Knn (Result)

variable {f : String → String}

/-! ## Tables -/

/-- New keys and values. -/
def both {μ ν : Type} (f : String → String) (g : μ → ν) (m : List (String × μ)) : List (String × ν) := m.map (fun p => (f p.1, g p.2))

section
variable {μ ν : Type} (hf : StrictMono f) (g : μ → ν)
include hf

theorem find_both (m : List (String × μ)) (k : String) : StdMap.find? (both f g m) (f k) = (StdMap.find? m k).map g := by
  induction m with
  | nil => rfl
  | cons p m ih =>
    obtain ⟨j, v⟩ := p
    change (if f j = f k then some (g v) else StdMap.find? (both f g m) (f k)) = Option.map g (if j = k then some v else StdMap.find? m k)
    by_cases h : j = k
    · rw [if_pos h, if_pos (by rw [h])]; rfl
    · rw [if_neg h, if_neg (fun e => h (hf.injective e)), ih]

theorem insertSorted_both (m : List (String × μ)) (k : String) (v : μ) :
    StdMap.insertSorted (f k) (g v) (both f g m) = both f g (StdMap.insertSorted k v m) := by
  induction m with
  | nil => rfl
  | cons p m ih =>
    obtain ⟨j, w⟩ := p
    change (if f k < f j then _ else _) = both f g (if k < j then _ else _)
    by_cases h : k < j
    · rw [if_pos h, if_pos (hf h)]; rfl
    · rw [if_neg h, if_neg (fun e => h (hf.lt_iff_lt.mp e))]
      change (f j, g w) :: StdMap.insertSorted (f k) (g v) (both f g m) = _
      rw [ih]; rfl

theorem replace_both (m : List (String × μ)) (k : String) (v : μ) :
    StdMap.replace (f k) (g v) (both f g m) = both f g (StdMap.replace k v m) := by
  induction m with
  | nil => rfl
  | cons p m ih =>
    obtain ⟨j, w⟩ := p
    change (if f j = f k then _ else _) = both f g (if j = k then _ else _)
    by_cases h : j = k
    · rw [if_pos h, if_pos (by rw [h])]; rfl
    · rw [if_neg h, if_neg (fun e => h (hf.injective e))]
      change (f j, g w) :: StdMap.replace (f k) (g v) (both f g m) = _
      rw [ih]; rfl

theorem insert_both (m : List (String × μ)) (k : String) (v : μ) :
    StdMap.insert (both f g m) (f k) (g v) = both f g (StdMap.insert m k v) := by
  unfold StdMap.insert
  rw [find_both hf, Option.isSome_map, insertSorted_both hf]
  split_ifs <;> rfl

theorem set_both (m : List (String × μ)) (k : String) (v : μ) :
    StdMap.set (both f g m) (f k) (g v) = both f g (StdMap.set m k v) := by
  unfold StdMap.set
  rw [find_both hf, Option.isSome_map, insertSorted_both hf, replace_both hf]
  split_ifs <;> rfl

end

/-- New values only. -/
abbrev vals {μ ν : Type} (g : μ → ν) (m : List (String × μ)) : List (String × ν) := both id g m

theorem find_vals {μ ν : Type} (g : μ → ν) (m : List (String × μ)) (k : String) :
    StdMap.find? (vals g m) k = (StdMap.find? m k).map g := find_both (f := id) strictMono_id g m k

theorem insert_vals {μ ν : Type} (g : μ → ν) (m : List (String × μ)) (k : String) (v : μ) :
    StdMap.insert (vals g m) k (g v) = vals g (StdMap.insert m k v) := insert_both (f := id) strictMono_id g m k v

theorem set_vals {μ ν : Type} (g : μ → ν) (m : List (String × μ)) (k : String) (v : μ) :
    StdMap.set (vals g m) k (g v) = vals g (StdMap.set m k v) := set_both (f := id) strictMono_id g m k v

theorem setInsert_tag (hf : StrictMono f) (x : String) (s : List String) : StdSet.insert (f x) (s.map f) = (StdSet.insert x s).map f := by
  induction s with
  | nil => rfl
  | cons y s ih =>
    rw [List.map_cons]
    unfold StdSet.insert
    rw [ih]
    simp only [hf.lt_iff_lt]
    split_ifs <;> rfl

/-! ## The map -/

theorem contains_tag (hf : StrictMono f) (l : Level) (tx : String) : (tagLevel f l).containsTransmitter (f tx) = l.containsTransmitter tx := by
  unfold Level.containsTransmitter
  have := find_both hf (tagTransmitter f) l.transmitters tx
  change (StdMap.find? (both f (tagTransmitter f) l.transmitters) (f tx)).isSome = _
  rw [this, Option.isSome_map]

theorem transmitter_tag (hf : StrictMono f) (l : Level) (tx : String) :
    (tagLevel f l).transmitter (f tx) = (l.transmitter tx).map (tagTransmitter f) := find_both hf (tagTransmitter f) l.transmitters tx

theorem filter_tag (hf : StrictMono f) (l : Level) (ms : List RadioData) :
    getLevelRadioMeasurements RadioData.id (tagLevel f l) (ms.map (tag f)) = (getLevelRadioMeasurements RadioData.id l ms).map (tag f) := by
  unfold getLevelRadioMeasurements
  rw [List.filter_map]
  congr 1
  refine List.filter_congr (fun m _ => ?_)
  exact contains_tag hf l m.id

theorem level_tag (c : LevelCollector) (id : String) : level (tagMap f c) id = (level c id).map (tagLevel f) := by
  unfold level
  change (match StdMap.find? c.indices id with | none => none | some i => (c.levels.map (tagLevel f))[i]?) = _
  cases StdMap.find? c.indices id with
  | none => rfl
  | some i => simp

theorem find_tag (hf : StrictMono f) (c : LevelCollector) (tx : String) :
    findLevelByTransmitterId (tagMap f c) (f tx) = findLevelByTransmitterId c tx := by
  unfold findLevelByTransmitterId
  change ((c.levels.map (tagLevel f)).find? _).map _ = _
  rw [List.find?_map, Option.map_map]
  congr 1
  congr 1
  funext l
  exact contains_tag hf l tx

/-! ## Radio -/

/-- The buffer. -/
def tagBuffer (f : String → String) (b : Radio.BufferState) : Radio.BufferState := { b with measurements := b.measurements.map (tagSignal f) }

/-- The state of the preprocessor. -/
def tagPre (f : String → String) (s : Radio.State) : Radio.State := { s with buffer := tagBuffer f s.buffer }

theorem supported_tag (hf : StrictMono f) (c : LevelCollector) (cs : CommonSettings) (tx : String) :
    Radio.isTransmitterSupported (Radio.mkCfg (tagMap f c) cs) (f tx) = Radio.isTransmitterSupported (Radio.mkCfg c cs) tx := by
  unfold Radio.isTransmitterSupported
  change (match findLevelByTransmitterId (tagMap f c) (f tx) with | none => _ | some levelId => _) =
    (match findLevelByTransmitterId c tx with | none => _ | some levelId => _)
  rw [find_tag hf]
  cases findLevelByTransmitterId c tx with
  | none => rfl
  | some id =>
    dsimp only
    change (if !hasLevel c id then _ else match level (tagMap f c) id with | none => _ | some l => _) =
      (if !hasLevel c id then _ else match level c id with | none => _ | some l => _)
    rw [level_tag]
    cases level c id with
    | none => rfl
    | some l =>
      simp only [Option.map_some]
      rw [contains_tag hf, transmitter_tag hf]
      cases l.transmitter tx with
      | none => rfl
      | some t => rfl

theorem valid_tag (hf : StrictMono f) (c : LevelCollector) (cs : CommonSettings) (d : RadioData) :
    Radio.getValidSignalEntry (Radio.mkCfg (tagMap f c) cs) (tag f d) = (Radio.getValidSignalEntry (Radio.mkCfg c cs) d).map (tag f) := by
  unfold Radio.getValidSignalEntry
  dsimp only
  have h1 : Radio.isTransmitterSupported (Radio.mkCfg (tagMap f c) cs) (tag f d).id = _ := supported_tag hf c cs d.id
  have h2 : findLevelByTransmitterId (Radio.mkCfg (tagMap f c) cs).levelIndex (tag f d).id =
      findLevelByTransmitterId (Radio.mkCfg c cs).levelIndex d.id := find_tag hf c d.id
  rw [h1, h2]
  have h3 : Radio.isSignalTypeSupported (Radio.mkCfg (tagMap f c) cs) (tag f d).type = Radio.isSignalTypeSupported (Radio.mkCfg c cs) d.type := rfl
  have h4 : Radio.isRssiValid (Radio.mkCfg (tagMap f c) cs) (tag f d).rssi = Radio.isRssiValid (Radio.mkCfg c cs) d.rssi := rfl
  have h5 : (tag f d).type = d.type := rfl
  rw [h3, h4, h5]
  change (if (if cs.measurementType = .RSSI ∧ _ then _ else if cs.measurementType ≠ .RSSI ∧ _ then _ else (cs.useUnknownTransmitters || _)) && _ then _ else _) =
    Option.map (tag f) (if (if cs.measurementType = .RSSI ∧ _ then _ else if cs.measurementType ≠ .RSSI ∧ _ then _ else (cs.useUnknownTransmitters || _)) && _ then _ else _)
  rw [apply_ite (Option.map (tag f))]
  rfl

theorem update_tag (hf : StrictMono f) (c : LevelCollector) (cs : CommonSettings) (s : Radio.State) (m : Measurement) :
    Radio.updateMeasurements (Radio.mkCfg (tagMap f c) cs) (tagPre f s) (tagMessage f m) =
      tagPre f (Radio.updateMeasurements (Radio.mkCfg c cs) s m) := by
  obtain ⟨d, ts⟩ := m
  cases d with
  | sensor d => rfl
  | nmea d => rfl
  | radio d =>
    unfold Radio.updateMeasurements
    dsimp only [tagMessage]
    rw [valid_tag hf]
    cases Radio.getValidSignalEntry (Radio.mkCfg c cs) d with
    | none => rfl
    | some v =>
      simp only [Option.map_some]
      unfold tagPre Radio.addMeasurement tagBuffer
      dsimp only
      split_ifs <;> simp [tagSignal, tag, Radio.mkCfg]

theorem average_tag (x : RadioMeasurement) (r : List RadioMeasurement) :
    Radio.averageRange (tagSignal f x) (r.map (tagSignal f)) = tag f (Radio.averageRange x r) := by
  unfold Radio.averageRange
  dsimp only
  rw [List.foldl_map, List.foldl_map, List.length_map]
  rfl

theorem loop_tag (hf : StrictMono f) (l : List RadioMeasurement) :
    Radio.averageLoop (l.map (tagSignal f)) = (Radio.averageLoop l).map (tag f) := by
  induction l using Radio.averageLoop.induct with
  | case1 => simp [Radio.averageLoop]
  | case2 x xs ih =>
    rw [List.map_cons, Radio.averageLoop, Radio.averageLoop, List.map_cons]
    have hp : (fun m : RadioMeasurement => !decide ((tagSignal f x).data.id < m.data.id)) ∘ tagSignal f =
        fun m => !decide (x.data.id < m.data.id) := by
      funext m
      change (!decide (f x.data.id < f m.data.id)) = _
      rw [decide_eq_decide.mpr hf.lt_iff_lt]
    rw [List.takeWhile_map, List.dropWhile_map, hp, ih, ← List.map_cons, average_tag]

theorem extract_tag (hf : StrictMono f) {env : Env} (hs : Compares f env) (c : LevelCollector) (cs : CommonSettings) (s : Radio.State) (t : Int) :
    Radio.extractRadioMeasurements env.radioSorts (Radio.mkCfg (tagMap f c) cs) (tagPre f s) t =
      ((Radio.extractRadioMeasurements env.radioSorts (Radio.mkCfg c cs) s t).1.map (List.map (tag f)),
        tagPre f (Radio.extractRadioMeasurements env.radioSorts (Radio.mkCfg c cs) s t).2) := by
  have h1 : ∀ cfg b, Radio.extractMeasurements env.radioSorts cfg (tagBuffer f b) t =
      ((Radio.extractMeasurements env.radioSorts cfg b t).1.map (tag f), tagBuffer f (Radio.extractMeasurements env.radioSorts cfg b t).2) := by
    intro cfg b
    unfold Radio.extractMeasurements
    have hb : (if t > 0 then { tagBuffer f b with lastStepTs := t } else tagBuffer f b) =
        tagBuffer f (if t > 0 then { b with lastStepTs := t } else b) := by split_ifs <;> rfl
    dsimp only
    rw [hb]
    generalize (if t > 0 then { b with lastStepTs := t } else b) = b1
    have e1 : (tagBuffer f b1).currentTs = b1.currentTs := rfl
    have e2 : (tagBuffer f b1).lastExtractionTs = b1.lastExtractionTs := rfl
    have e3 : (tagBuffer f b1).lastStepTs = b1.lastStepTs := rfl
    have e4 : env.radioSorts.byId (tagBuffer f b1).measurements = (env.radioSorts.byId b1.measurements).map (tagSignal f) := hs.byId _
    rw [e1, e2, e3, e4, loop_tag hf, hs.byTs]
    have e5 : ∀ (k : Int) (l : List RadioMeasurement), (l.map (tagSignal f)).dropWhile (fun rm => !decide (rm.ts ≥ k)) =
        (l.dropWhile (fun rm => !decide (rm.ts ≥ k))).map (tagSignal f) := by
      intro k l
      rw [List.dropWhile_map]
      rfl
    rw [e5]
    split_ifs <;> rfl
  have h2 : ∀ ms, Radio.closestAps env.radioSorts (Radio.mkCfg (tagMap f c) cs) (ms.map (tag f)) =
      (Radio.closestAps env.radioSorts (Radio.mkCfg c cs) ms).map (tag f) := by
    intro ms
    unfold Radio.closestAps
    change (if cs.useClosestAps then _ else _) = List.map (tag f) (if cs.useClosestAps then _ else _)
    split_ifs
    · dsimp only
      rw [← List.map_reverse, hs.byRssi, ← List.map_reverse, List.length_map, ← List.map_take]
      change (if _ > cs.numClosestAps then _ else _) = List.map (tag f) (if _ > cs.numClosestAps then _ else _)
      split_ifs <;> rfl
    · rfl
  have h3 : ∀ m, Radio.withDistance (Radio.mkCfg (tagMap f c) cs) (tag f m) = (Radio.withDistance (Radio.mkCfg c cs) m).map (tag f) := by
    intro m
    unfold Radio.withDistance
    change (if m.type ≠ .WIFI_RTT then (match findLevelByTransmitterId (tagMap f c) (f m.id) with | none => _ | some id => _) else _) =
      Option.map (tag f) (if m.type ≠ .WIFI_RTT then (match findLevelByTransmitterId c m.id with | none => _ | some id => _) else _)
    rw [find_tag hf]
    split_ifs
    · cases findLevelByTransmitterId c m.id with
      | none => rfl
      | some id =>
        change (match level (tagMap f c) id with | none => none | some l => _) = Option.map (tag f) (match level c id with | none => none | some l => _)
        rw [level_tag]
        cases level c id with
        | none => rfl
        | some l =>
          simp only [Option.map_some]
          change (match (tagLevel f l).transmitter (f m.id) with | none => none | some t => _) = _
          rw [transmitter_tag hf]
          cases l.transmitter m.id with
          | none => rfl
          | some t => rfl
    · rfl
  have h4 : ∀ ms : List RadioData, (ms.map (tag f)).mapM (Radio.withDistance (Radio.mkCfg (tagMap f c) cs)) =
      (ms.mapM (Radio.withDistance (Radio.mkCfg c cs))).map (List.map (tag f)) := by
    intro ms
    induction ms with
    | nil => rfl
    | cons m ms ih =>
      rw [List.map_cons, List.mapM_cons, List.mapM_cons, h3, ih]
      cases Radio.withDistance (Radio.mkCfg c cs) m with
      | none => rfl
      | some d =>
        cases ms.mapM (Radio.withDistance (Radio.mkCfg c cs)) with
        | none => rfl
        | some ds => rfl
  unfold Radio.extractRadioMeasurements
  dsimp only
  have hb : (tagPre f s).buffer = tagBuffer f s.buffer := rfl
  have hc : (Radio.mkCfg (tagMap f c) cs).buffer = (Radio.mkCfg c cs).buffer := rfl
  rw [hb, hc, h1]
  dsimp only
  rw [h2, h4]
  rfl

end Verif.Tag
