import Verif.Order.Spec
import Verif.Floors.Props

/-!
# Lemmas for C141
-/

namespace Verif.Order

open Verif.Levels Verif.Nav Verif.Floors
open Verif.Knn (Result)

theorem find_perm {α : Type} {p : α → Bool} {l l' : List α} (h : l'.Perm l) (hu : ∀ a ∈ l, ∀ b ∈ l, p a → p b → a = b) :
    l'.find? p = l.find? p := by
  cases h1 : l.find? p with
  | none =>
    rw [List.find?_eq_none] at h1 ⊢
    exact fun a ha => h1 a (h.mem_iff.mp ha)
  | some a =>
    cases h2 : l'.find? p with
    | none =>
      rw [List.find?_eq_none] at h2
      exact absurd (List.find?_some h1) (h2 a (h.mem_iff.mpr (List.mem_of_find?_eq_some h1)))
    | some b =>
      rw [hu b (h.mem_iff.mp (List.mem_of_find?_eq_some h2)) a (List.mem_of_find?_eq_some h1) (List.find?_some h2) (List.find?_some h1)]

theorem sorted_ext {ν : Type} {m m' : List (String × ν)} (h : StdMap.Sorted m) (h' : StdMap.Sorted m')
    (he : ∀ k, StdMap.find? m k = StdMap.find? m' k) : m = m' := by
  have hn : ∀ {x : List (String × ν)}, StdMap.Sorted x → x.Nodup := fun hx => hx.imp (fun hab e => by rw [e] at hab; exact lt_irrefl _ hab)
  have hp : m.Perm m' := by
    rw [List.perm_ext_iff_of_nodup (hn h) (hn h')]
    rintro ⟨k, v⟩
    constructor
    · intro hm
      exact StdMap.mem_of_find? (by rw [← he]; exact StdMap.find?_of_mem h hm)
    · intro hm
      exact StdMap.mem_of_find? (by rw [he]; exact StdMap.find?_of_mem h' hm)
  have hq : List.Pairwise (fun a b : String × ν => a.1 < b.1) m := h
  exact List.Perm.eq_of_pairwise (fun a b _ _ h1 h2 => absurd h1 (lt_asymm h2)) hq h' hp

/-! ### Transmitters of a floor -/

theorem insertAll_find (txs : List (Transmitter XYZPoint)) (m : List (String × Transmitter XYZPoint)) (hm : StdMap.Sorted m) :
    StdMap.Sorted (txs.foldl (fun m tx => StdMap.insert m tx.id tx) m) ∧
    ∀ k, StdMap.find? (txs.foldl (fun m tx => StdMap.insert m tx.id tx) m) k =
      match StdMap.find? m k with
      | some v => some v
      | none => txs.find? (fun t => t.id == k) := by
  induction txs generalizing m with
  | nil =>
    refine ⟨hm, fun k => ?_⟩
    show StdMap.find? m k = _
    cases StdMap.find? m k <;> rfl
  | cons t txs ih =>
    obtain ⟨i1, i2⟩ := ih (StdMap.insert m t.id t) (StdMap.insert_sorted m t.id t hm)
    refine ⟨i1, fun k => ?_⟩
    rw [List.foldl_cons, i2, StdMap.find?_insert]
    by_cases h : t.id = k
    · subst h
      cases hf : StdMap.find? m t.id <;> simp [hf, List.find?_cons]
    · have hb : (t.id == k) = false := by simpa using h
      rw [List.find?_cons, hb]
      simp [h]

theorem insertAll_perm {txs txs' : List (Transmitter XYZPoint)} (h : txs'.Perm txs) (hn : (txs.map Transmitter.id).Nodup)
    (m : List (String × Transmitter XYZPoint)) (hm : StdMap.Sorted m) :
    txs'.foldl (fun m tx => StdMap.insert m tx.id tx) m = txs.foldl (fun m tx => StdMap.insert m tx.id tx) m := by
  obtain ⟨a1, a2⟩ := insertAll_find txs m hm
  obtain ⟨b1, b2⟩ := insertAll_find txs' m hm
  refine sorted_ext b1 a1 (fun k => ?_)
  rw [a2, b2, find_perm h]
  intro a ha b hb h1 h2
  exact List.inj_on_of_nodup_map hn ha hb (by rw [beq_iff_eq] at h1 h2; rw [h1, h2])

/-! ### Lookups -/

section
variable {ls ls' : List Level} (h : ls'.Perm ls) (hn : (ls.map Level.id).Nodup) (hx : OneFloorEach ls)
include h hn

theorem level_perm (id : String) : level (collect ls') id = level (collect ls) id := by
  rw [(C12_lookup ls' id).2.2.1, (C12_lookup ls id).2.2.1]
  refine find_perm h ?_
  intro a ha b hb h1 h2
  exact List.inj_on_of_nodup_map hn ha hb (by rw [beq_iff_eq] at h1 h2; rw [h1, h2])

omit hn in
theorem hasLevel_perm (id : String) : hasLevel (collect ls') id = hasLevel (collect ls) id := by
  rw [Bool.eq_iff_iff, (C12_lookup ls' id).2.1, (C12_lookup ls id).2.1]
  constructor
  · rintro ⟨l, hl, e⟩; exact ⟨l, h.mem_iff.mp hl, e⟩
  · rintro ⟨l, hl, e⟩; exact ⟨l, h.mem_iff.mpr hl, e⟩

omit hn in
include hx in
theorem first_perm (tx : String) : ls'.find? (fun l => l.containsTransmitter tx) = ls.find? (fun l => l.containsTransmitter tx) :=
  find_perm h (fun a ha b hb h1 h2 => hx a ha b hb tx h1 h2)

omit hn in
include hx in
theorem findLevel_perm (tx : String) : findLevelByTransmitterId (collect ls') tx = findLevelByTransmitterId (collect ls) tx := by
  unfold findLevelByTransmitterId
  rw [collect_levels, collect_levels, first_perm h hx]

omit hn in
include hx in
theorem admissible_perm (cs : CommonSettings) (d : RadioData) : Radio.Admissible ls' cs d ↔ Radio.Admissible ls cs d := by
  unfold Radio.Admissible Radio.Known
  rw [first_perm h hx]

omit hn in
include hx in
theorem windows_perm (cs : CommonSettings) (ms : List Measurement) : windows ls' cs ms = windows ls cs ms := by
  have : Windows.take ls' cs = Windows.take ls cs := by
    funext w m
    unfold Windows.take
    split
    · rename_i d _
      by_cases ha : Radio.Admissible ls cs d
      · rw [if_pos ha, if_pos ((admissible_perm h hx cs d).mpr ha)]
      · rw [if_neg ha, if_neg (fun h' => ha ((admissible_perm h hx cs d).mp h'))]
    · rfl
  unfold windows
  rw [this]

include hx in
theorem update_perm (cs : CommonSettings) (st : Radio.State) (m : Measurement) :
    Radio.updateMeasurements (Radio.mkCfg (collect ls') cs) st m = Radio.updateMeasurements (Radio.mkCfg (collect ls) cs) st m := by
  have hs : ∀ tx, Radio.isTransmitterSupported (Radio.mkCfg (collect ls') cs) tx =
      Radio.isTransmitterSupported (Radio.mkCfg (collect ls) cs) tx := by
    intro tx
    unfold Radio.isTransmitterSupported
    simp only [Radio.mkCfg, findLevel_perm h hx, hasLevel_perm h, level_perm h hn]
    rfl
  have hv : ∀ e, Radio.getValidSignalEntry (Radio.mkCfg (collect ls') cs) e = Radio.getValidSignalEntry (Radio.mkCfg (collect ls) cs) e := by
    intro e
    unfold Radio.getValidSignalEntry
    rw [hs]
    simp only [Radio.mkCfg, findLevel_perm h hx]
    rfl
  unfold Radio.updateMeasurements
  split
  · rw [hv]
    rfl
  · rfl
  · rfl

include hx in
theorem extract_perm (sorts : Radio.Sorts) (cs : CommonSettings) (st : Radio.State) (t : Int) :
    Radio.extractRadioMeasurements sorts (Radio.mkCfg (collect ls') cs) st t =
      Radio.extractRadioMeasurements sorts (Radio.mkCfg (collect ls) cs) st t := by
  have hd : Radio.withDistance (Radio.mkCfg (collect ls') cs) = Radio.withDistance (Radio.mkCfg (collect ls) cs) := by
    funext e
    unfold Radio.withDistance
    simp only [Radio.mkCfg, findLevel_perm h hx, level_perm h hn]
  unfold Radio.extractRadioMeasurements
  rw [hd]
  rfl

end

/-! ### Parameters of the zones -/

theorem params_find {settings : List (String × Estim.LevelSettings)} {ls : List Level} {A B : List (String × ℝ)}
    (h : Estim.zoneParams settings (collect ls) = some (A, B)) :
    StdMap.Sorted A ∧ StdMap.Sorted B ∧ (∀ k, StdMap.find? A k =
      if k ∈ ls.map Level.id then (StdMap.find? settings k).map Estim.LevelSettings.normalModeA else none) ∧
    (∀ k, StdMap.find? B k =
      if k ∈ ls.map Level.id then (StdMap.find? settings k).map Estim.LevelSettings.normalModeB else none) := by
  unfold Estim.zoneParams at h
  rw [collect_levels] at h
  induction ls using List.reverseRecOn generalizing A B with
  | nil =>
    simp at h
    rw [h.1, h.2]
    simp [StdMap.Sorted]
  | append_singleton ls l ih =>
    rw [List.foldlM_append, Option.bind_eq_bind, Option.bind_eq_some_iff] at h
    obtain ⟨⟨A1, B1⟩, h1, h2⟩ := h
    obtain ⟨i1, i2, i3, i4⟩ := ih h1
    simp only [List.foldlM_cons, List.foldlM_nil] at h2
    cases hs : StdMap.find? settings l.id with
    | none => rw [hs] at h2; simp at h2
    | some p =>
      rw [hs] at h2
      simp at h2
      rw [← h2.1, ← h2.2]
      refine ⟨StdMap.set_sorted _ _ _ i1, StdMap.set_sorted _ _ _ i2, fun k => ?_, fun k => ?_⟩
      · rw [StdMap.find?_set, i3]
        by_cases hk : l.id = k
        · subst hk
          simp [hs]
        · simp [hk, Ne.symm hk]
      · rw [StdMap.find?_set, i4]
        by_cases hk : l.id = k
        · subst hk
          simp [hs]
        · simp [hk, Ne.symm hk]

theorem params_perm {ls ls' : List Level} (h : ls'.Perm ls) (settings : List (String × Estim.LevelSettings)) :
    Estim.zoneParams settings (collect ls') = Estim.zoneParams settings (collect ls) := by
  have hmem : ∀ k, k ∈ ls'.map Level.id ↔ k ∈ ls.map Level.id := fun k => (h.map Level.id).mem_iff
  cases h1 : Estim.zoneParams settings (collect ls) with
  | none =>
    rw [(Estim.C33_params settings (collect ls')).1]
    obtain ⟨l, hl, e⟩ := (Estim.C33_params settings (collect ls)).1.mp h1
    rw [collect_levels] at hl ⊢
    exact ⟨l, h.mem_iff.mpr hl, e⟩
  | some ab =>
    cases h2 : Estim.zoneParams settings (collect ls') with
    | none =>
      obtain ⟨l, hl, e⟩ := (Estim.C33_params settings (collect ls')).1.mp h2
      rw [collect_levels] at hl
      have : Estim.zoneParams settings (collect ls) = none :=
        (Estim.C33_params settings (collect ls)).1.mpr ⟨l, by rw [collect_levels]; exact h.mem_iff.mp hl, e⟩
      rw [h1] at this
      cases this
    | some ab' =>
      obtain ⟨A, B⟩ := ab
      obtain ⟨A', B'⟩ := ab'
      obtain ⟨a1, a2, a3, a4⟩ := params_find h1
      obtain ⟨b1, b2, b3, b4⟩ := params_find h2
      rw [sorted_ext b1 a1 (fun k => by rw [a3, b3]; simp only [hmem]), sorted_ext b2 a2 (fun k => by rw [a4, b4]; simp only [hmem])]

/-! ### Satellites -/

theorem outdoorLevels_find {s : CommonSettings} (hs : s.useGpsOutsideMap = false) (st : Estim.OutdoorState) (g : Estim.GpsPosition)
    (sats : Int) (ls : List Level) :
    open Classical in
    Estim.outdoorLevels s st g sats ls =
      Estim.outdoorLevels s st g sats (ls.find? (fun l => decide (Estim.Box.Covers l.geometry.boundingBox
        (Geo.gpsToLocal ⟨g.latitude, g.longitude⟩ l.bindingPoint)))).toList := by
  induction ls with
  | nil => rfl
  | cons l ls ih =>
    by_cases hc : Estim.Box.Covers l.geometry.boundingBox (Geo.gpsToLocal ⟨g.latitude, g.longitude⟩ l.bindingPoint)
    · rw [List.find?_cons_of_pos (by simpa using hc)]
      unfold Estim.outdoorLevels
      rw [Option.toList_some]
      dsimp only
      rw [if_pos (Or.inl hc), if_pos (Or.inl hc)]
    · rw [List.find?_cons_of_neg (by simpa using hc), ← ih]
      conv_lhs => unfold Estim.outdoorLevels
      dsimp only
      rw [if_neg (by simp [hc, hs])]

theorem outdoor_perm {ls ls' : List Level} (h : ls'.Perm ls) {s : CommonSettings} (hs : s.useGpsOutsideMap = false)
    (st : Estim.OutdoorState) (ts : Int) (sensor : SensorMeasurement) (nmea : NmeaMeasurement) (flag : Bool)
    (hf : FixOnOneFloor ls sensor.data) :
    Estim.outdoorPosition s (collect ls') st ts sensor nmea flag = Estim.outdoorPosition s (collect ls) st ts sensor nmea flag := by
  classical
  unfold Estim.outdoorPosition
  dsimp only
  rw [collect_levels, collect_levels]
  generalize hg : Estim.extractGpsPosition s ts sensor = gps
  cases gps with
  | none => rfl
  | some g =>
    have hl : sensor.data.type = .LOCATION ∧ g.latitude = sensor.data.values.x ∧ g.longitude = sensor.data.values.y := by
      unfold Estim.extractGpsPosition at hg
      split_ifs at hg with ht
      cases hg
      exact ⟨ht, rfl, rfl⟩
    dsimp only
    rw [outdoorLevels_find hs, outdoorLevels_find hs _ _ _ ls, find_perm h]
    intro a ha b hb h1 h2
    simp only [decide_eq_true_eq] at h1 h2
    rw [hl.2.1, hl.2.2] at h1 h2
    exact hf hl.1 a ha b hb h1 h2

/-! ### The floor of a window -/

theorem floorOf_perm {ls ls' : List Level} (h : ls'.Perm ls) (hn : ls.Nodup) {win : List RadioMeasurement}
    (ht : ∀ a ∈ ls, ∀ b ∈ ls, onFloor a win ≠ [] → onFloor b win ≠ [] → strength win a = strength win b → a = b) {d : Level}
    (hd : FloorOf ls win d) : FloorOf ls' win d := by
  obtain ⟨p, q, e, h2, h3, h4⟩ := hd
  have hdm : d ∈ ls := by rw [e]; simp
  have hle : ∀ k ∈ ls, k ≠ d → onFloor k win ≠ [] → strength win k < strength win d := by
    intro k hk hkd hkw
    have : strength win k ≤ strength win d := by
      rw [e, List.mem_append, List.mem_cons] at hk
      rcases hk with hk | hk | hk
      · exact (h3 k hk hkw).le
      · exact absurd hk hkd
      · exact h4 k hk hkw
    rcases this.lt_or_eq with h | h
    · exact h
    · exact absurd (ht k hk d hdm hkw h2 h) hkd
  obtain ⟨p', q', e'⟩ := List.append_of_mem (h.mem_iff.mpr hdm)
  have hn' : ls'.Nodup := h.nodup_iff.mpr hn
  rw [e', List.nodup_append] at hn'
  refine ⟨p', q', e', h2, ?_, ?_⟩
  · intro k hk hkw
    refine hle k (h.mem_iff.mp (by rw [e']; simp [hk])) ?_ hkw
    exact hn'.2.2 k hk d (by simp)
  · intro k hk hkw
    refine (hle k (h.mem_iff.mp (by rw [e']; simp [hk])) ?_ hkw).le
    rintro rfl
    exact (List.nodup_cons.mp hn'.2.1).1 hk

end Verif.Order
