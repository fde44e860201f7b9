import Verif.Floors.Spec
import Verif.Nav.ZoneProps

/-!
# The state of a client with zones on several floors
-/

namespace Verif.Floors

open Verif.Levels Verif.Nav
open Verif.Knn (Result)

/-! ## The windows -/

theorem closedWindows_nil (ls : List Level) (cs : CommonSettings) : closedWindows ls cs [] = [] := rfl

open Classical in
theorem closedWindows_snoc (ls : List Level) (cs : CommonSettings) (ms : List Measurement) (m : Measurement) :
    closedWindows ls cs (ms ++ [m]) = closedWindows ls cs ms ++
      (if Closes ls cs ms m then (windows ls cs (ms ++ [m])).closed else none).toList := by
  unfold closedWindows
  rw [List.length_append, List.length_singleton, List.range_succ, List.filterMap_append]
  congr 1
  · apply List.filterMap_congr
    intro k hk
    have hk : k < ms.length := List.mem_range.mp hk
    rw [List.getElem?_append_left hk, List.take_append_of_le_length hk.le, List.take_append_of_le_length hk]
  · have e1 : (ms ++ [m]).take ms.length = ms := by simp
    have e2 : (ms ++ [m]).take (ms.length + 1) = ms ++ [m] := by simp
    simp only [List.filterMap_cons, List.filterMap_nil]
    have e3 : (∃ m', (ms ++ [m])[ms.length]? = some m' ∧ Closes ls cs ((ms ++ [m]).take ms.length) m') ↔ Closes ls cs ms m := by
      rw [e1]; simp
    simp only [e3, e2]
    split <;> rename_i h <;> rw [h] <;> rfl

/-! ## The floor of a window -/

theorem mem_idsOf {win : List RadioMeasurement} {id : String} : id ∈ idsOf win ↔ ∃ m ∈ win, m.data.id = id := by
  unfold idsOf
  rw [List.mem_dedup, List.mem_map]

theorem contains_iff (lv : Level) (id : String) : lv.containsTransmitter id = (lv.transmitter id).isSome := rfl

/-- The averages of a window restricted to a floor are the averages of the signals of the floor. -/
theorem handed_floor {win : List RadioMeasurement} {radio : List RadioData} (ho : HandedOut win radio) (lv : Level) :
    HandedOut (onFloor lv win) (radio.filter (fun e => (lv.transmitter e.id).isSome)) := by
  have hmean : ∀ id, (lv.transmitter id).isSome → meanRssi (onFloor lv win) id = meanRssi win id := by
    intro id hid
    unfold meanRssi Radio.ofTransmitter onFloor
    rw [List.filter_filter]
    congr 2
    apply List.filter_congr
    intro m _
    by_cases h : m.data.id = id
    · simp [h, hid]
    · simp [h]
  constructor
  · have := ho.sorted
    rw [List.pairwise_map] at this ⊢
    exact this.filter _
  · intro id
    constructor
    · rintro ⟨e, he, rfl⟩
      rw [List.mem_filter] at he
      obtain ⟨m, hm, hid⟩ := (ho.ids e.id).mp ⟨e, he.1, rfl⟩
      exact ⟨m, by simp only [onFloor, List.mem_filter]; exact ⟨hm, by rw [hid]; exact he.2⟩, hid⟩
    · rintro ⟨m, hm, rfl⟩
      simp only [onFloor, List.mem_filter] at hm
      obtain ⟨e, he, hid⟩ := (ho.ids m.data.id).mpr ⟨m, hm.1, rfl⟩
      exact ⟨e, by rw [List.mem_filter]; exact ⟨he, by rw [hid]; exact hm.2⟩, hid⟩
  · intro e he
    rw [List.mem_filter] at he
    rw [hmean e.id he.2]
    exact ho.rssi e he.1
  · intro e he
    rw [List.mem_filter] at he
    obtain ⟨m, hm, h1, h2⟩ := ho.power e he.1
    exact ⟨m, by simp only [onFloor, List.mem_filter]; exact ⟨hm, by rw [h1]; exact he.2⟩, h1, h2⟩

theorem handed_ids {win : List RadioMeasurement} {radio : List RadioData} (ho : HandedOut win radio) :
    (radio.map RadioData.id).Perm (idsOf win) := by
  have hn : (idsOf win).Nodup := List.nodup_dedup _
  rw [List.perm_ext_iff_of_nodup (ho.sorted.imp (fun h => ne_of_lt h)) hn]
  intro id
  rw [mem_idsOf, ← ho.ids id, List.mem_map]

theorem handed_nil {win : List RadioMeasurement} {radio : List RadioData} (ho : HandedOut win radio) : radio = [] ↔ win = [] := by
  constructor
  · intro h
    cases win with
    | nil => rfl
    | cons m l =>
      obtain ⟨e, he, -⟩ := (ho.ids m.data.id).mpr ⟨m, by simp, rfl⟩
      rw [h] at he; cases he
  · intro h
    cases radio with
    | nil => rfl
    | cons e l =>
      obtain ⟨m, hm, -⟩ := (ho.ids e.id).mp ⟨e, by simp, rfl⟩
      rw [h] at hm; cases hm

theorem mean_perm {a b : List ℝ} (h : a.Perm b) : Radio.mean a = Radio.mean b := by
  unfold Radio.mean
  rw [h.sum_eq, h.length_eq]

theorem score_eq {win : List RadioMeasurement} {radio : List RadioData} (ho : HandedOut win radio) (lv : Level) :
    LevelEst.score false radio lv = strength win lv := by
  have hf : LevelEst.heardOn lv radio = radio.filter (fun e => (lv.transmitter e.id).isSome) := rfl
  have hp := handed_ids (handed_floor ho lv)
  have hq := handed_ids ho
  unfold LevelEst.score strength
  rw [hf, ← hp.length_eq, ← hq.length_eq, List.length_map, List.length_map]
  simp only [Bool.false_eq_true, if_false, add_zero]
  congr 1
  rw [← mean_perm (hp.map (meanRssi win)), List.map_map]
  congr 1
  apply List.map_congr_left
  intro e he
  exact ho.rssi e (List.mem_of_mem_filter he)

theorem admitted_floor {ls : List Level} {cs : CommonSettings} (hp : ByZones cs) {d : RadioData} (h : Radio.Admissible ls cs d) :
    ∃ l ∈ ls, (l.transmitter d.id).isSome := by
  rcases h.2.2.2 with h | ⟨t, ⟨l, h1, -, h3⟩, -⟩
  · rw [hp.unknown] at h; cases h
  · exact ⟨l, List.mem_of_find?_eq_some h1, by rw [h3]; rfl⟩

/-- The handed out signals name the floor of the window. -/
theorem handed_detected {ls : List Level} {c : Cfg} (hc : Client ls c) (hp : ByZones c.cs) {win : List RadioMeasurement}
    {radio : List RadioData} (ho : HandedOut win radio) (hwin : win ≠ []) (ha : ∀ h ∈ win, Radio.Admissible ls c.cs h.data) :
    ∃ d, FloorOf ls win d ∧ detectLevel c radio = some d.id := by
  have hlevels : (collect ls).levels = ls := (C12_lookup ls "").1
  have hheard : ∀ l : Level, LevelEst.heardOn l radio = [] ↔ onFloor l win = [] := fun l => handed_nil (handed_floor ho l)
  have hdet : detectLevel c radio = LevelEst.detectByTransmitters false (collect ls) radio := by
    unfold detectLevel
    rw [hc.parts.detector, hc.parts.levels]
    unfold createLevelEstimator
    rw [if_neg (by rw [hp.radiomap]; simp [hp.algorithm])]
    dsimp only
    rw [hp.txPower]
  obtain ⟨r, hr, hd⟩ := LevelEst.C27_detected false ls radio (collect ls) hlevels
  cases r with
  | some l =>
    obtain ⟨bef, aft, hl, hok, hlo, h1, h2⟩ := hr
    refine ⟨l, ⟨bef, aft, hl, fun h => hok ((hheard l).mpr h), ?_, ?_⟩, by rw [hdet, hd]⟩
    · intro k hk hk'
      rw [← score_eq ho, ← score_eq ho]
      exact h1 k hk (fun h => hk' ((hheard k).mp h))
    · intro k hk hk'
      rw [← score_eq ho, ← score_eq ho]
      exact h2 k hk (fun h => hk' ((hheard k).mp h))
  | none =>
    exfalso
    obtain ⟨m, hm⟩ := List.exists_mem_of_ne_nil win hwin
    obtain ⟨l, hl, ht⟩ := admitted_floor hp (ha m hm)
    have hne : LevelEst.heardOn l radio ≠ [] := by
      intro h
      rw [hheard] at h
      have : m ∈ onFloor l win := by simp only [onFloor, List.mem_filter]; exact ⟨hm, ht⟩
      rw [h] at this; cases this
    rcases LevelEst.C27_some_level (collect ls) radio (by
      intro e he
      obtain ⟨m, hm, hid⟩ := (ho.ids e.id).mp ⟨e, he, rfl⟩
      have hb := mean_between (l := (Radio.ofTransmitter e.id win).map (·.data.rssi)) (lo := -1000) (hi := 0)
        (by
          intro hnil
          have : m ∈ Radio.ofTransmitter e.id win := by simp [Radio.ofTransmitter, hm, hid]
          rw [List.map_eq_nil_iff.mp hnil] at this
          cases this)
        (by
          intro x hx
          obtain ⟨m', hm', rfl⟩ := List.mem_map.mp hx
          have h1 := (ha m' (List.mem_of_mem_filter hm')).2.1 hp.strength
          exact ⟨lt_of_le_of_lt hp.cutOff h1.1, h1.2⟩)
      rw [ho.rssi e he]
      exact ⟨hb.1, hb.2.le⟩) with ⟨h1, -⟩ | ⟨l', hl', -, h2⟩
    · exact hne (h1 l (by rw [hlevels]; exact hl))
    · rw [hd] at h2
      rw [hlevels] at hl'
      exact hc.map.named l' hl' (by simpa using h2.symm)

/-- The zone of a floor that is heard. -/
theorem handed_zone_on {ls : List Level} {c : Cfg} (hc : Client ls c) (hp : ByZones c.cs) {win : List RadioMeasurement}
    {radio : List RadioData} (ho : HandedOut win radio) (lv : Level) (hwin : onFloor lv win ≠ [])
    (old : Position) (ts : Int) :
    ∃ p b t, indoorPosition c old lv ts radio = .ok (.OK, p, old) ∧ ZoneAt c lv ts (onFloor lv win) b t p := by
  obtain ⟨A, B, hz⟩ : ∃ A B, c.indoor = .zone A B := by
    rcases hc.parts.indoor with ⟨h, -⟩ | ⟨-, h⟩
    · exact absurd h hp.algorithm
    · exact h
  obtain ⟨-, hz2⟩ := Estim.C33_zone A B lv ts radio
  have ho := handed_floor ho lv
  generalize hR : radio.filter (fun e => (lv.transmitter e.id).isSome) = R at ho hz2
  generalize onFloor lv win = W at *
  obtain ⟨bef, m, aft, t, prec, h1, h2, h3, h4, h6, h7⟩ := hz2 (fun h => hwin ((handed_nil ho).mp h))
  have hm : m ∈ R := by rw [h1]; simp
  refine ⟨_, m.id, t, by unfold indoorPosition; rw [hz]; dsimp only; rw [h6], ?_, h4, rfl, rfl, rfl, rfl, rfl, rfl, ?_⟩
  · refine ⟨(ho.ids m.id).mp ⟨m, hm, rfl⟩, ?_⟩
    intro u hu
    obtain ⟨e, he, hid⟩ := (ho.ids u.data.id).mpr ⟨u, hu, rfl⟩
    rw [← hid, ← ho.rssi e he, ← ho.rssi m hm]
    have hs := ho.sorted
    rw [h1] at he hs
    rcases List.mem_append.mp he with he | he
    · exact Or.inl (h2 e he)
    · rcases List.mem_cons.mp he with rfl | he
      · exact Or.inr ⟨rfl, le_refl _⟩
      · rcases lt_or_eq_of_le (h3 e he) with h | h
        · exact Or.inl h
        · right
          refine ⟨h, le_of_lt ?_⟩
          rw [List.map_append, List.map_cons, List.pairwise_append] at hs
          exact (List.pairwise_cons.mp hs.2.1).1 e.id (List.mem_map_of_mem he)
  · intro A' B' a b' hz' hA hB hb
    rw [hz] at hz'
    cases hz'
    rw [← ho.rssi m hm]
    exact h7 a b' hA hB hb

theorem handed_silent {ls : List Level} {c : Cfg} (hc : Client ls c) (hp : ByZones c.cs) (lv : Level) {radio : List RadioData}
    (h : radio.filter (fun e => (lv.transmitter e.id).isSome) = []) (old : Position) (ts : Int) :
    indoorPosition c old lv ts radio = .ok (.NO_SOLUTION, Position.default, old) := by
  obtain ⟨A, B, hz⟩ : ∃ A B, c.indoor = .zone A B := by
    rcases hc.parts.indoor with ⟨h, -⟩ | ⟨-, h⟩
    · exact absurd h hp.algorithm
    · exact h
  obtain ⟨hz1, -⟩ := Estim.C33_zone A B lv ts radio
  unfold indoorPosition
  rw [hz]
  dsimp only
  rw [hz1 h]

/-! ## The votes -/

/-- The history of the client holds the votes. -/
structure Counted (v : Votes) (h : LevelEst.History) : Prop where
  init : h.isInitialized = v.used.isSome
  current : h.current = v.used.getD ""
  count : ∀ d, LevelEst.countAt h.floorCnt d = v.count d

theorem count_set (m : List (String × ℕ)) (d : String) (n : ℕ) (f : String) :
    LevelEst.countAt (StdMap.set m d n) f = if f = d then n else LevelEst.countAt m f := by
  unfold LevelEst.countAt
  rw [StdMap.find?_set]
  by_cases h : f = d
  · rw [if_pos h, if_pos h.symm]; rfl
  · rw [if_neg h, if_neg (fun e => h e.symm)]

theorem counted_see {v : Votes} {h : LevelEst.History} (hh : Counted v h) {d : String} (hd : d ≠ "") :
    Counted (v.see d) (LevelEst.detectLevelUsingHistory h d).2 ∧
    (LevelEst.detectLevelUsingHistory h d).1 = (LevelEst.detectLevelUsingHistory h d).2.current := by
  refine ⟨?_, by unfold LevelEst.detectLevelUsingHistory; rw [if_neg hd]⟩
  unfold LevelEst.detectLevelUsingHistory Votes.see
  rw [if_neg hd]
  dsimp only
  have hcnt : ∀ f, LevelEst.countAt (if h.isInitialized = true then h else { h with isInitialized := true, current := d }).floorCnt f = v.count f := by
    intro f
    split_ifs <;> exact hh.count f
  have hcur : (if h.isInitialized = true then h else { h with isInitialized := true, current := d }).current = v.used.getD d ∧
      (if h.isInitialized = true then h else { h with isInitialized := true, current := d }).isInitialized = true := by
    have h1 := hh.init
    have h2 := hh.current
    cases hu : v.used with
    | none => rw [hu] at h1; simp [h1]
    | some u => rw [hu] at h1 h2; simp [h1, h2]
  generalize (if h.isInitialized = true then h else { h with isInitialized := true, current := d }) = h1 at *
  rw [hcnt d]
  by_cases h4 : 4 ≤ v.count d
  · rw [if_pos (show v.count d + 1 > LevelEst.maxLevelIdOccur by unfold LevelEst.maxLevelIdOccur; omega), if_pos h4]
    refine ⟨by simp [hcur.2], rfl, ?_⟩
    intro f
    dsimp only
    rw [count_set]
    rfl
  · rw [if_neg (show ¬ v.count d + 1 > LevelEst.maxLevelIdOccur by unfold LevelEst.maxLevelIdOccur; omega), if_neg h4]
    refine ⟨by simp [hcur.2], by simp [hcur.1], ?_⟩
    intro f
    dsimp only
    rw [count_set, hcnt]

theorem votes_snoc (ds : List String) (d : String) : votes (ds ++ [d]) = (votes ds).see d := by
  unfold votes
  rw [List.foldl_append]
  rfl

/-- A vote either keeps the floor in use or takes the floor that was seen. -/
theorem see_used (v : Votes) (d : String) : (v.see d).used = some d ∨ (v.used.isSome ∧ (v.see d).used = v.used) := by
  unfold Votes.see
  split_ifs
  · exact Or.inl rfl
  · cases v.used with
    | none => exact Or.inl rfl
    | some u => exact Or.inr ⟨rfl, rfl⟩

theorem floorOf_unique {ls : List Level} {win : List RadioMeasurement} {a b : Level} (ha : FloorOf ls win a) (hb : FloorOf ls win b) :
    a = b := by
  obtain ⟨p, q, h1, h2, h3, h4⟩ := ha
  obtain ⟨p', q', k1, k2, k3, k4⟩ := hb
  rw [h1] at k1
  rcases List.append_eq_append_iff.mp k1 with ⟨x, e1, e2⟩ | ⟨x, e1, e2⟩
  · cases x with
    | nil => simp at e2; exact e2.1
    | cons y x =>
      simp only [List.cons_append, List.cons.injEq] at e2
      obtain ⟨rfl, e2⟩ := e2
      have a1 := k3 a (by rw [e1]; simp) h2
      have a2 := h4 b (by rw [e2]; simp) k2
      exact absurd a1 (not_lt.mpr a2)
  · cases x with
    | nil => simp at e2; exact e2.1.symm
    | cons y x =>
      simp only [List.cons_append, List.cons.injEq] at e2
      obtain ⟨rfl, e2⟩ := e2
      have a1 := h3 b (by rw [e1]; simp) k2
      have a2 := k4 a (by rw [e2]; simp) h2
      exact absurd a1 (not_lt.mpr a2)

theorem floors_unique {ls : List Level} {ws : List (Int × List RadioMeasurement)} {ds ds' : List Level}
    (h : List.Forall₂ (fun w d => FloorOf ls w.2 d) ws ds) (h' : List.Forall₂ (fun w d => FloorOf ls w.2 d) ws ds') : ds = ds' := by
  induction h generalizing ds' with
  | nil => cases h'; rfl
  | cons h1 _ ih =>
    cases h' with
    | cons h2 h3 => rw [floorOf_unique h1 h2, ih h3]

theorem lastHeard_unique {lv : Level} {ws : List (Int × List RadioMeasurement)} {t0 t1 : Int} {w0 w1 : List RadioMeasurement}
    (h0 : LastHeardOn lv ws t0 w0) (h1 : LastHeardOn lv ws t1 w1) : t0 = t1 ∧ w0 = w1 := by
  obtain ⟨p, q, e, hne, hq⟩ := h0
  obtain ⟨p', q', e', hne', hq'⟩ := h1
  rw [e] at e'
  rcases List.append_eq_append_iff.mp e' with ⟨x, a, b⟩ | ⟨x, a, b⟩
  · cases x with
    | nil => simp at b; exact b.1
    | cons y x =>
      simp only [List.cons_append, List.cons.injEq] at b
      exact absurd (hq (t1, w1) (by rw [b.2]; simp)) hne'
  · cases x with
    | nil => simp at b; exact ⟨b.1.1.symm, b.1.2.symm⟩
    | cons y x =>
      simp only [List.cons_append, List.cons.injEq] at b
      exact absurd (hq' (t0, w0) (by rw [b.2]; simp)) hne

theorem lastHeard_now {lv : Level} (ws : List (Int × List RadioMeasurement)) (t0 : Int) {win : List RadioMeasurement}
    (h : onFloor lv win ≠ []) : LastHeardOn lv (ws ++ [(t0, win)]) t0 win := ⟨ws, [], rfl, h, by simp⟩

theorem lastHeard_still {lv : Level} {ws : List (Int × List RadioMeasurement)} {t0 : Int} {win : List RadioMeasurement}
    (h0 : LastHeardOn lv ws t0 win) (t1 : Int) {w1 : List RadioMeasurement} (h : onFloor lv w1 = []) :
    LastHeardOn lv (ws ++ [(t1, w1)]) t0 win := by
  obtain ⟨p, q, e, hne, hq⟩ := h0
  refine ⟨p, q ++ [(t1, w1)], by rw [e]; simp, hne, ?_⟩
  intro w hw
  rcases List.mem_append.mp hw with hw | hw
  · exact hq w hw
  · rw [List.mem_singleton] at hw
    rw [hw]; exact h

end Verif.Floors
