import Verif.Unheard.Spec
import Verif.Nav.Trace
import Verif.Radio.Lemmas

/-!
# Lemmas for C152
-/

namespace Verif.Unheard

open Verif.Levels Verif.Nav
open Verif.Knn (Result)

variable {K : String → Prop}

/-! ## Lookups -/

theorem SameFloor.contains {l l' : Level} (h : SameFloor K l l') {i : String} (hi : K i) :
    l'.containsTransmitter i = l.containsTransmitter i := by
  have := h.tx i hi
  unfold Level.transmitter at this
  unfold Level.containsTransmitter
  rw [this]

theorem SameFloor.measurements {l l' : Level} (h : SameFloor K l l') {msr : List RadioData} (hm : ∀ m ∈ msr, K m.id) :
    getLevelRadioMeasurements RadioData.id l' msr = getLevelRadioMeasurements RadioData.id l msr := by
  unfold getLevelRadioMeasurements
  exact List.filter_congr (fun m hm' => h.contains (hm m hm'))

theorem find_same {c c' : LevelCollector} (h : SameMap K c c') {i : String} (hi : K i) :
    findLevelByTransmitterId c' i = findLevelByTransmitterId c i := by
  unfold findLevelByTransmitterId
  obtain ⟨ls, is⟩ := c
  obtain ⟨ls', is'⟩ := c'
  obtain ⟨-, h⟩ := h
  dsimp only at h ⊢
  induction h with
  | nil => rfl
  | cons hl _ ih =>
    rw [List.find?_cons, List.find?_cons, hl.contains hi]
    split
    · simp [hl.id]
    · exact ih

theorem has_same {c c' : LevelCollector} (h : SameMap K c c') (id : String) : hasLevel c' id = hasLevel c id := by
  unfold hasLevel
  rw [h.indices]

theorem get_same {ls ls' : List Level} (h : List.Forall₂ (SameFloor K) ls ls') (i : ℕ) :
    (ls[i]? = none ∧ ls'[i]? = none) ∨ ∃ l l', ls[i]? = some l ∧ ls'[i]? = some l' ∧ SameFloor K l l' := by
  induction h generalizing i with
  | nil => left; simp
  | cons hl _ ih =>
    cases i with
    | zero => right; exact ⟨_, _, rfl, rfl, hl⟩
    | succ i => simpa using ih i

theorem level_same {c c' : LevelCollector} (h : SameMap K c c') (id : String) :
    (level c id = none ∧ level c' id = none) ∨ ∃ l l', level c id = some l ∧ level c' id = some l' ∧ SameFloor K l l' := by
  unfold level
  rw [h.indices]
  cases StdMap.find? c.indices id with
  | none => left; exact ⟨rfl, rfl⟩
  | some i => exact get_same h.floors i

/-! ## Radio -/

theorem valid_same {c c' : LevelCollector} (h : SameMap K c c') (cs : CommonSettings) (e : RadioData) (he : K e.id) :
    Radio.getValidSignalEntry (Radio.mkCfg c' cs) e = Radio.getValidSignalEntry (Radio.mkCfg c cs) e := by
  have hs : Radio.isTransmitterSupported (Radio.mkCfg c' cs) e.id = Radio.isTransmitterSupported (Radio.mkCfg c cs) e.id := by
    unfold Radio.isTransmitterSupported
    rw [show (Radio.mkCfg c' cs).levelIndex = c' from rfl, show (Radio.mkCfg c cs).levelIndex = c from rfl, find_same h he]
    cases findLevelByTransmitterId c e.id with
    | none => rfl
    | some id =>
      dsimp only
      rw [has_same h]
      rcases level_same h id with ⟨h1, h2⟩ | ⟨l, l', h1, h2, hl⟩
      · rw [h1, h2]
      · rw [h1, h2]
        dsimp only
        rw [hl.contains he, hl.tx _ he]
        rfl
  unfold Radio.getValidSignalEntry
  rw [hs]
  simp only [Radio.mkCfg, find_same h he]
  rfl

/-- All stored signals are of known ids. -/
def Kept (K : String → Prop) (s : Radio.State) : Prop := ∀ m ∈ s.buffer.measurements, K m.data.id

/-- A message of a known id, if it is a signal. -/
def Known (K : String → Prop) (m : Measurement) : Prop := ∀ d, m.data = .radio d → K d.id

theorem update_same {c c' : LevelCollector} (h : SameMap K c c') (cs : CommonSettings) (s : Radio.State) (m : Measurement)
    (hm : Known K m) : Radio.updateMeasurements (Radio.mkCfg c' cs) s m = Radio.updateMeasurements (Radio.mkCfg c cs) s m := by
  obtain ⟨d, ts⟩ := m
  cases d with
  | radio d =>
    unfold Radio.updateMeasurements
    dsimp only
    rw [valid_same h cs d (hm d rfl)]
    rfl
  | sensor d => rfl
  | nmea d => rfl

theorem update_kept (cfg : Radio.Cfg) (s : Radio.State) (m : Measurement) (hs : Kept K s) (hm : Known K m) :
    Kept K (Radio.updateMeasurements cfg s m) := by
  obtain ⟨d, ts⟩ := m
  cases d with
  | radio d =>
    unfold Radio.updateMeasurements
    dsimp only
    cases hv : Radio.getValidSignalEntry cfg d with
    | none => exact hs
    | some v =>
      have hvd : v = d := by
        unfold Radio.getValidSignalEntry at hv
        dsimp only at hv
        split_ifs at hv
        all_goals first | exact (Option.some.inj hv).symm | cases hv
      dsimp only
      intro x hx
      have : x ∈ s.buffer.measurements ∨ x.data.id = v.id := by
        unfold Radio.addMeasurement at hx
        dsimp only at hx
        split_ifs at hx
        all_goals
          rw [List.mem_append, List.mem_singleton] at hx
          rcases hx with hx | hx
          · exact Or.inl hx
          · right; rw [hx]
      rcases this with hx | hx
      · exact hs x hx
      · rw [hx, hvd]; exact hm d rfl
  | sensor d => exact hs
  | nmea d => exact hs

theorem average_ids (l : List RadioMeasurement) (hl : ∀ m ∈ l, K m.data.id) : ∀ e ∈ Radio.averageLoop l, K e.id := by
  induction l using Radio.averageLoop.induct with
  | case1 => intro e he; rw [Radio.averageLoop] at he; cases he
  | case2 x xs ih =>
    intro e he
    rw [Radio.averageLoop, List.mem_cons] at he
    rcases he with he | he
    · rw [he]; exact hl x (by simp)
    · exact ih (fun m hm => hl m (List.mem_cons_of_mem _ ((List.dropWhile_suffix _).mem hm))) e he

theorem extractMeasurements_kept {sorts : Radio.Sorts} (hs : sorts.Lawful) (cfg : Radio.BufferCfg) (b : Radio.BufferState) (t : Int)
    (hb : ∀ m ∈ b.measurements, K m.data.id) :
    (∀ e ∈ (Radio.extractMeasurements sorts cfg b t).1, K e.id) ∧
      ∀ m ∈ (Radio.extractMeasurements sorts cfg b t).2.measurements, K m.data.id := by
  have h0 : ∀ m ∈ (if t > 0 then { b with lastStepTs := t } else b).measurements, K m.data.id := by
    split_ifs <;> exact hb
  unfold Radio.extractMeasurements
  dsimp only
  generalize (if t > 0 then { b with lastStepTs := t } else b) = b1 at h0 ⊢
  have h1 : ∀ m ∈ sorts.byId b1.measurements, K m.data.id := fun m hm => h0 m (((hs.byId.perm _).mem_iff).mp hm)
  by_cases ha : b1.currentTs - b1.lastExtractionTs < cfg.shiftMs
  · rw [if_pos ha]
    exact ⟨by simp, h0⟩
  rw [if_neg ha]
  have h2 := average_ids _ h1
  split_ifs
  · exact ⟨h2, h1⟩
  · exact ⟨h2, by simp⟩
  · refine ⟨h2, fun m hm => h1 m ?_⟩
    exact ((hs.byTs.perm _).mem_iff).mp ((List.dropWhile_suffix _).mem hm)

theorem withDistance_same {c c' : LevelCollector} (h : SameMap K c c') (cs : CommonSettings) (e : RadioData) (he : K e.id) :
    Radio.withDistance (Radio.mkCfg c' cs) e = Radio.withDistance (Radio.mkCfg c cs) e := by
  unfold Radio.withDistance
  rw [show (Radio.mkCfg c' cs).levelIndex = c' from rfl, show (Radio.mkCfg c cs).levelIndex = c from rfl, find_same h he]
  cases findLevelByTransmitterId c e.id with
  | none => rfl
  | some id =>
    dsimp only
    rcases level_same h id with ⟨h1, h2⟩ | ⟨l, l', h1, h2, hl⟩
    · rw [h1, h2]
      rfl
    · rw [h1, h2]
      dsimp only
      rw [hl.tx _ he]
      rfl

theorem withDistance_id (cfg : Radio.Cfg) {e e' : RadioData} (h : Radio.withDistance cfg e = some e') : e'.id = e.id := by
  unfold Radio.withDistance at h
  split_ifs at h with hc
  · split at h
    · rw [← Option.some.inj h]
    · split at h
      · cases h
      · split at h
        · cases h
        · rw [← Option.some.inj h]
  · rw [← Option.some.inj h]

theorem mapM_same {α β : Type} {f g : α → Option β} (l : List α) (h : ∀ a ∈ l, f a = g a) : l.mapM f = l.mapM g := by
  induction l with
  | nil => rfl
  | cons a l ih =>
    rw [List.mapM_cons, List.mapM_cons, h a (by simp), ih (fun b hb => h b (List.mem_cons_of_mem _ hb))]

theorem mapM_all {α β : Type} {f : α → Option β} {P : α → Prop} {Q : β → Prop} (hf : ∀ a b, P a → f a = some b → Q b) (l : List α)
    (hl : ∀ a ∈ l, P a) : ∀ r, l.mapM f = some r → ∀ b ∈ r, Q b := by
  induction l with
  | nil =>
    intro r hr b hb
    simp at hr
    rw [hr] at hb
    cases hb
  | cons a l ih =>
    intro r hr b hb
    rw [List.mapM_cons] at hr
    cases ha : f a with
    | none => rw [ha] at hr; cases hr
    | some a' =>
      rw [ha] at hr
      cases hl' : l.mapM f with
      | none => rw [hl'] at hr; cases hr
      | some r' =>
        rw [hl'] at hr
        have hr' : r = a' :: r' := by simpa using hr.symm
        rw [hr', List.mem_cons] at hb
        rcases hb with rfl | hb
        · exact hf a _ (hl a (by simp)) ha
        · exact ih (fun x hx => hl x (List.mem_cons_of_mem _ hx)) r' hl' b hb

theorem extract_same {c c' : LevelCollector} (h : SameMap K c c') {sorts : Radio.Sorts} (hs : sorts.Lawful) (cs : CommonSettings)
    (s : Radio.State) (t : Int) (hk : Kept K s) :
    Radio.extractRadioMeasurements sorts (Radio.mkCfg c' cs) s t = Radio.extractRadioMeasurements sorts (Radio.mkCfg c cs) s t := by
  unfold Radio.extractRadioMeasurements
  dsimp only
  have hb : (Radio.mkCfg c' cs).buffer = (Radio.mkCfg c cs).buffer := rfl
  rw [hb]
  obtain ⟨h1, -⟩ := extractMeasurements_kept hs (Radio.mkCfg c cs).buffer s.buffer t hk
  have h2 : Radio.closestAps sorts (Radio.mkCfg c' cs) = Radio.closestAps sorts (Radio.mkCfg c cs) := rfl
  rw [h2]
  congr 1
  exact mapM_same _ (fun e he => withDistance_same h cs e (h1 e (Radio.closestAps_mem sorts hs _ _ e he)))

theorem extract_kept {sorts : Radio.Sorts} (hs : sorts.Lawful) (cfg : Radio.Cfg) (s : Radio.State) (t : Int) (hk : Kept K s) :
    Kept K (Radio.extractRadioMeasurements sorts cfg s t).2 ∧
      ∀ r, (Radio.extractRadioMeasurements sorts cfg s t).1 = some r → ∀ e ∈ r, K e.id := by
  obtain ⟨h1, h2⟩ := extractMeasurements_kept hs cfg.buffer s.buffer t hk
  refine ⟨h2, fun r hr => ?_⟩
  unfold Radio.extractRadioMeasurements at hr
  dsimp only at hr
  refine mapM_all (P := fun e : RadioData => K e.id) (fun a b ha hab => ?_) _ (fun e he => h1 e (Radio.closestAps_mem sorts hs cfg _ e he)) r hr
  rw [withDistance_id cfg hab]
  exact ha

/-! ## Satellites, floors and places -/

theorem outdoorLevels_same (s : CommonSettings) (st : Estim.OutdoorState) (g : Estim.GpsPosition) (sats : Int) {ls ls' : List Level}
    (h : List.Forall₂ (SameFloor K) ls ls') : Estim.outdoorLevels s st g sats ls' = Estim.outdoorLevels s st g sats ls := by
  induction h with
  | nil => rfl
  | cons hl _ ih =>
    unfold Estim.outdoorLevels
    rw [hl.binding, hl.geometry, hl.id, ih]

theorem outdoor_same {c c' : LevelCollector} (h : SameMap K c c') (s : CommonSettings) (st : Estim.OutdoorState) (ts : Int)
    (sensor : SensorMeasurement) (nmea : NmeaMeasurement) (flag : Bool) :
    Estim.outdoorPosition s c' st ts sensor nmea flag = Estim.outdoorPosition s c st ts sensor nmea flag := by
  unfold Estim.outdoorPosition
  dsimp only
  cases Estim.extractGpsPosition s ts sensor with
  | none => rfl
  | some g => exact outdoorLevels_same s _ g _ h.floors

theorem foldlM_same {β : Type} (f : β → Level → Option β) {ls ls' : List Level} (hls : List.Forall₂ (SameFloor K) ls ls')
    (h : ∀ b l l', SameFloor K l l' → f b l' = f b l) (b : β) : ls'.foldlM f b = ls.foldlM f b := by
  induction hls generalizing b with
  | nil => rfl
  | cons hl _ ih =>
    rw [List.foldlM_cons, List.foldlM_cons, h b _ _ hl]
    congr 1
    funext b'
    exact ih b'

theorem foldlM_mem {α β : Type} (f g : β → α → Option β) (l : List α) (h : ∀ b, ∀ a ∈ l, f b a = g b a) (b : β) :
    l.foldlM f b = l.foldlM g b := by
  induction l generalizing b with
  | nil => rfl
  | cons a l ih =>
    rw [List.foldlM_cons, List.foldlM_cons, h b a (by simp)]
    congr 1
    funext b'
    exact ih (fun b a ha => h b a (List.mem_cons_of_mem _ ha)) b'

theorem byTransmitters_same {c c' : LevelCollector} (h : SameMap K c c') (p : Bool) {radio : List RadioData}
    (hr : ∀ m ∈ radio, K m.id) : LevelEst.detectByTransmitters p c' radio = LevelEst.detectByTransmitters p c radio := by
  unfold LevelEst.detectByTransmitters
  congr 1
  refine foldlM_same _ h.floors (fun b l l' hl => ?_) _
  unfold LevelEst.detectStep
  dsimp only
  rw [hl.measurements hr, hl.id]
  have hA : LevelEst.getAverageA l' (getLevelRadioMeasurements RadioData.id l radio) =
      LevelEst.getAverageA l (getLevelRadioMeasurements RadioData.id l radio) := by
    unfold LevelEst.getAverageA
    rw [foldlM_mem (fun (a : ℝ) (m : RadioData) => (l'.transmitter m.id).map (fun t => a + t.pathloss.A))
      (fun (a : ℝ) (m : RadioData) => (l.transmitter m.id).map (fun t => a + t.pathloss.A))]
    intro b a ha
    rw [hl.tx _ (hr a (List.mem_of_mem_filter ha))]
  unfold LevelEst.levelCost
  rw [hA]

theorem byRadiomap_same {c c' : LevelCollector} (h : SameMap K c c') (b : Bool) (maps : List (String × List Knn.Fingerprint))
    (radio : List RadioData) : Knn.detectByRadiomap b maps c' radio = Knn.detectByRadiomap b maps c radio := by
  unfold Knn.detectByRadiomap
  congr 1
  refine foldlM_same _ h.floors (fun b l l' hl => ?_) _
  unfold Knn.detectStep
  rw [hl.id]

theorem foldl_same {β : Type} (f : β → Level → β) {ls ls' : List Level} (hls : List.Forall₂ (SameFloor K) ls ls')
    (h : ∀ b l l', SameFloor K l l' → f b l' = f b l) (b : β) : ls'.foldl f b = ls.foldl f b := by
  induction hls generalizing b with
  | nil => rfl
  | cons hl _ ih =>
    rw [List.foldl_cons, List.foldl_cons, h b _ _ hl]
    exact ih _

theorem maps_same {c c' : LevelCollector} (h : SameMap K c c') : Knn.getLevelsRadiomaps c' = Knn.getLevelsRadiomaps c := by
  unfold Knn.getLevelsRadiomaps
  refine foldl_same _ h.floors (fun b l l' hl => ?_) _
  unfold Knn.levelRadiomap
  rw [hl.id, hl.radiomap]

theorem refs_same {c c' : LevelCollector} (h : SameMap K c c') :
    Knn.getLevelReferenceTransmittersMap c' = Knn.getLevelReferenceTransmittersMap c := by
  unfold Knn.getLevelReferenceTransmittersMap
  refine foldl_same _ h.floors (fun b l l' hl => ?_) _
  rw [hl.id, hl.radiomap]

theorem triangles_same {c c' : LevelCollector} (h : SameMap K c c') (s : Triang.Sorts) : Knn.triangulate s c' = Knn.triangulate s c := by
  unfold Knn.triangulate
  obtain ⟨ls, is⟩ := c
  obtain ⟨ls', is'⟩ := c'
  obtain ⟨-, h⟩ := h
  dsimp only at h ⊢
  generalize ([] : List (String × List Knn.RpTriangle)) = m
  induction h generalizing m with
  | nil => rfl
  | cons hl _ ih =>
    unfold Knn.triangulateFrom
    dsimp only
    rw [hl.id, hl.radiomap, hl.geometry]
    simp only [ih]

theorem knn_same {c c' : LevelCollector} (h : SameMap K c c') (env : Env) (cs : CommonSettings) :
    Knn.mkCfg env.triSorts env.rpSort c' cs = Knn.mkCfg env.triSorts env.rpSort c cs := by
  unfold Knn.mkCfg
  rw [maps_same h, refs_same h, triangles_same h]

theorem params_same {c c' : LevelCollector} (h : SameMap K c c') (settings : List (String × Estim.LevelSettings)) :
    Estim.zoneParams settings c' = Estim.zoneParams settings c := by
  unfold Estim.zoneParams
  refine foldlM_same _ h.floors (fun b l l' hl => ?_) _
  rw [hl.id]

theorem txPoint_same {l l' : Level} (h : SameFloor K l l') {i : String} (hi : K i) : Trilat.txPoint l' i = Trilat.txPoint l i := by
  unfold Trilat.txPoint
  rw [h.tx i hi]

theorem pushBad_same {l l' : Level} (h : SameFloor K l l') (p : XYZPoint) (m : RadioData) (ms : List RadioData) (hm : ∀ a ∈ ms, K a.id) :
    Trilat.pushBad l' p m ms = Trilat.pushBad l p m ms := by
  induction ms with
  | nil => rfl
  | cons a ms ih =>
    unfold Trilat.pushBad
    rw [ih (fun b hb => hm b (List.mem_cons_of_mem _ hb)), txPoint_same h (hm a (by simp))]

theorem badLoop_same {l l' : Level} (h : SameFloor K l l') (all ms bad : List RadioData) (ha : ∀ a ∈ all, K a.id) (hm : ∀ a ∈ ms, K a.id) :
    Trilat.badLoop l' all ms bad = Trilat.badLoop l all ms bad := by
  induction ms generalizing bad with
  | nil => rfl
  | cons a ms ih =>
    unfold Trilat.badLoop
    simp only [fun bad => ih bad (fun b hb => hm b (List.mem_cons_of_mem _ hb)), txPoint_same h (hm a (by simp)),
      fun p => pushBad_same h p a all ha]

theorem altitudeSum_same {l l' : Level} (h : SameFloor K l l') (x y : ℝ) (ms : List RadioData) (acc : Option ℝ × Bool)
    (hm : ∀ a ∈ ms, K a.id) : Trilat.altitudeSum l' x y ms acc = Trilat.altitudeSum l x y ms acc := by
  induction ms generalizing acc with
  | nil => rfl
  | cons a ms ih =>
    unfold Trilat.altitudeSum
    simp only [fun acc => ih acc (fun b hb => hm b (List.mem_cons_of_mem _ hb)), txPoint_same h (hm a (by simp))]

theorem filters_sub (bad : List RadioData) : ∀ l : List RadioData, ∀ a ∈ bad.foldl (fun new m => new.filter (fun e => ¬ m.id = e.id)) l, a ∈ l := by
  induction bad with
  | nil => intro l a ha; exact ha
  | cons b bad ih =>
    intro l a ha
    rw [List.foldl_cons] at ha
    exact List.mem_of_mem_filter (ih _ a ha)

theorem altitude_same {l l' : Level} (h : SameFloor K l l') {sort : List RadioData → List RadioData}
    (hs : SortsBy (fun a b : RadioData => a.distance < b.distance) sort) (solve : List Trilat.Row → XYZPoint) (msr : List RadioData)
    (hm : ∀ a ∈ msr, K a.id) : Trilat.calculateAltitude sort solve l' msr = Trilat.calculateAltitude sort solve l msr := by
  have hk : ∀ a ∈ sort (getLevelRadioMeasurements RadioData.id l msr), K a.id := fun a ha =>
    hm a (List.mem_of_mem_filter (((hs.perm _).mem_iff).mp ha))
  have hg : Trilat.getIntersected sort l' (getLevelRadioMeasurements RadioData.id l msr) =
      Trilat.getIntersected sort l (getLevelRadioMeasurements RadioData.id l msr) := by
    unfold Trilat.getIntersected
    dsimp only
    rw [badLoop_same h _ _ _ hk hk]
  have hi : ∀ ms, Trilat.getIntersected sort l (getLevelRadioMeasurements RadioData.id l msr) = some ms → ∀ a ∈ ms, K a.id := by
    intro ms hms a ha
    unfold Trilat.getIntersected at hms
    dsimp only at hms
    rw [Option.map_eq_some_iff] at hms
    obtain ⟨bad, -, rfl⟩ := hms
    exact hk a (filters_sub bad _ a ha)
  unfold Trilat.calculateAltitude
  rw [h.measurements hm, hg]
  cases hms : Trilat.getIntersected sort l (getLevelRadioMeasurements RadioData.id l msr) with
  | none => rfl
  | some ms =>
    have hk' := hi ms hms
    dsimp only
    cases ms with
    | nil => rfl
    | cons m1 rest =>
      dsimp only
      rw [txPoint_same h (hk' m1 (by simp)),
        mapM_same (f := fun m : RadioData => (Trilat.txPoint l' m.id).map (fun p => (p, m.distance)))
          (g := fun m : RadioData => (Trilat.txPoint l m.id).map (fun p => (p, m.distance))) rest
          (fun a ha => by rw [txPoint_same h (hk' a (List.mem_cons_of_mem _ ha))])]
      simp only [fun x y acc => altitudeSum_same h x y (m1 :: rest) acc hk']

theorem strongest_mem (l : List RadioData) {m : RadioData} (h : Estim.strongest l = some m) : m ∈ l := by
  cases l with
  | nil => cases h
  | cons a l =>
    have : ∀ (l : List RadioData) (a : RadioData), l.foldl (fun best u => if best.rssi < u.rssi then u else best) a ∈ a :: l := by
      intro l
      induction l with
      | nil => intro a; simp
      | cons b l ih =>
        intro a
        rw [List.foldl_cons]
        split_ifs
        · exact List.mem_cons_of_mem _ (ih b)
        · rcases List.mem_cons.mp (ih a) with h | h
          · rw [h]; simp
          · exact List.mem_cons_of_mem _ (List.mem_cons_of_mem _ h)
    rw [← Option.some.inj h]
    exact this l a

theorem zone_same {l l' : Level} (h : SameFloor K l l') (A B : List (String × ℝ)) (ts : Int) {msr : List RadioData}
    (hm : ∀ a ∈ msr, K a.id) : Estim.zonePosition A B l' ts msr = Estim.zonePosition A B l ts msr := by
  unfold Estim.zonePosition
  rw [h.measurements hm, h.id]
  cases hs : Estim.strongest (getLevelRadioMeasurements RadioData.id l msr) with
  | none => rfl
  | some m =>
    have hk : K m.id := hm m (List.mem_of_mem_filter (strongest_mem _ hs))
    dsimp only
    rw [h.contains hk, h.tx _ hk]

theorem knnPosition_same {l l' : Level} (h : SameFloor K l l') (c : Knn.Cfg) (p : Position) (ts : Int) (msr : List RadioData) :
    Knn.calculatePosition c p l' ts msr = Knn.calculatePosition c p l ts msr := by
  unfold Knn.calculatePosition
  rw [h.id, h.radiomap]

theorem processed_same {l l' : Level} (h : SameFloor K l l') (cs : CommonSettings) (allowed : ℝ → ℝ → Prop) (s : Post.PostState)
    (p : Position) (ts motion : Int) :
    Post.getProcessedPosition cs allowed s p ts motion l' = Post.getProcessedPosition cs allowed s p ts motion l := by
  have e1 : Post.isInsideMap cs p l' = Post.isInsideMap cs p l := by
    unfold Post.isInsideMap
    rw [h.geometry]
  have e2 : Post.snapToGraph cs l' = Post.snapToGraph cs l := by
    funext q
    unfold Post.snapToGraph
    rw [h.graph]
  unfold Post.getProcessedPosition
  dsimp only
  rw [e2, h.geometry, e1]

end Verif.Unheard
