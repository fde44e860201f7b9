import Verif.Radio.Spec
import Verif.Levels.Props

/-! # Helper lemmas about the radio measurement preprocessor -/

namespace Verif.Radio

open Verif.Levels

section Lists
variable {α : Type*}

theorem takeWhile_eq_filter {R : α → α → Prop} {p : α → Bool} (hp : ∀ a b, R a b → p b = true → p a = true)
    (l : List α) (h : l.Pairwise R) : l.takeWhile p = l.filter p := by
  induction l with
  | nil => rfl
  | cons a l ih =>
    obtain ⟨ha, hl⟩ := List.pairwise_cons.mp h
    by_cases hpa : p a = true
    · simp [hpa, ih hl]
    · have : ∀ b ∈ l, ¬ p b = true := fun b hb hpb => hpa (hp a b (ha b hb) hpb)
      simp only [List.takeWhile_cons, hpa, List.filter_cons]
      simpa using this

theorem dropWhile_eq_filter {R : α → α → Prop} {p : α → Bool} (hp : ∀ a b, R a b → p b = true → p a = true)
    (l : List α) (h : l.Pairwise R) : l.dropWhile p = l.filter (fun a => !p a) := by
  induction l with
  | nil => rfl
  | cons a l ih =>
    obtain ⟨ha, hl⟩ := List.pairwise_cons.mp h
    by_cases hpa : p a = true
    · simp [hpa, ih hl]
    · have : ∀ b ∈ l, ¬ p b = true := fun b hb hpb => hpa (hp a b (ha b hb) hpb)
      simp only [List.dropWhile_cons, hpa, List.filter_cons]
      simp only [Bool.not_eq_true] at hpa this
      simp only [Bool.not_false, if_true]
      simp
      exact (List.filter_eq_self.mpr (fun b hb => by simp [this b hb])).symm

end Lists

theorem foldl_add_eq_sum {α : Type*} (f : α → ℝ) (l : List α) (a : ℝ) :
    l.foldl (fun s m => s + f m) a = a + (l.map f).sum := by
  induction l generalizing a with
  | nil => simp
  | cons x l ih => simp [ih, add_assoc]

/-- The order in which `std::sort` by id leaves the window. -/
def SortedById (l : List RadioMeasurement) : Prop := l.Pairwise (fun a b => ¬ b.data.id < a.data.id)

theorem averageRange_eq (x : RadioMeasurement) (r : List RadioMeasurement) (hr : r ≠ []) :
    averageRange x r = { x.data with
      rssi := mean (r.map (·.data.rssi)), distance := mean (r.map (·.data.distance)) } := by
  have hl : (0 : ℝ) < r.length := by exact_mod_cast List.length_pos_of_ne_nil hr
  simp only [averageRange, mean, divide_pos hl, foldl_add_eq_sum (fun m : RadioMeasurement => m.data.rssi),
    foldl_add_eq_sum (fun m : RadioMeasurement => m.data.distance), zero_add, List.length_map]

theorem averageLoop_spec (l : List RadioMeasurement) (h : SortedById l) :
    ((averageLoop l).map RadioData.id).Pairwise (· < ·) ∧
    (∀ id, id ∈ (averageLoop l).map RadioData.id ↔ id ∈ l.map (·.data.id)) ∧
    ∀ e ∈ averageLoop l,
      e.rssi = mean ((ofTransmitter e.id l).map (·.data.rssi)) ∧
      e.distance = mean ((ofTransmitter e.id l).map (·.data.distance)) ∧
      ∃ m ∈ ofTransmitter e.id l, e = { m.data with rssi := e.rssi, distance := e.distance } := by
  induction l using averageLoop.induct with
  | case1 => simp [averageLoop]
  | case2 x xs ih =>
    obtain ⟨hx, hxs⟩ := List.pairwise_cons.mp h
    have hp : ∀ a b : RadioMeasurement, ¬ b.data.id < a.data.id →
        (!decide (x.data.id < b.data.id)) = true → (!decide (x.data.id < a.data.id)) = true := by
      intro a b hab hb
      simp only [Bool.not_eq_true', decide_eq_false_iff_not, not_lt] at *
      exact hab.trans hb
    rw [dropWhile_eq_filter hp xs hxs] at ih
    set rest := xs.filter (fun a => !(!decide (x.data.id < a.data.id))) with hrest
    have hmemrest : ∀ m, m ∈ rest ↔ m ∈ xs ∧ x.data.id < m.data.id := by
      intro m; simp [hrest]
    have hrs : SortedById rest := List.Pairwise.filter _ hxs
    obtain ⟨ih1, ih2, ih3⟩ := ih hrs
    have htake : x :: xs.takeWhile (fun m => !decide (x.data.id < m.data.id)) = ofTransmitter x.data.id (x :: xs) := by
      rw [takeWhile_eq_filter hp xs hxs]
      simp only [ofTransmitter, List.filter_cons, decide_true, if_true]
      congr 1
      apply List.filter_congr
      intro m hm
      have := hx m hm
      simp only [not_lt] at this
      by_cases hlt : x.data.id < m.data.id
      · simp [hlt, hlt.ne']
      · have : m.data.id = x.data.id := le_antisymm (not_lt.mp hlt) this
        simp [this]
    have hof : ∀ id, x.data.id < id → ofTransmitter id (x :: xs) = ofTransmitter id rest := by
      intro id hid
      simp only [ofTransmitter, hrest, List.filter_cons, hid.ne, decide_false, List.filter_filter]
      rw [if_neg (by simp)]
      apply List.filter_congr
      intro m hm
      by_cases he : m.data.id = id
      · simp [he, hid]
      · simp [he]
    rw [averageLoop, htake, dropWhile_eq_filter hp xs hxs, averageRange_eq _ _ (by rw [← htake]; simp)]
    refine ⟨?_, ?_, ?_⟩
    · rw [List.map_cons, List.pairwise_cons]
      refine ⟨?_, ih1⟩
      intro id hid
      rw [ih2] at hid
      obtain ⟨m, hm, rfl⟩ := List.mem_map.mp hid
      exact ((hmemrest m).mp hm).2
    · intro id
      rw [List.map_cons, List.mem_cons, ih2, List.map_cons, List.mem_cons]
      constructor
      · rintro (h1 | h1)
        · exact .inl h1
        · obtain ⟨m, hm, rfl⟩ := List.mem_map.mp h1
          exact .inr (List.mem_map.mpr ⟨m, ((hmemrest m).mp hm).1, rfl⟩)
      · rintro (h1 | h1)
        · exact .inl h1
        · obtain ⟨m, hm, rfl⟩ := List.mem_map.mp h1
          rcases (not_lt.mp (hx m hm)).lt_or_eq with hlt | heq
          · exact .inr (List.mem_map.mpr ⟨m, (hmemrest m).mpr ⟨hm, hlt⟩, rfl⟩)
          · exact .inl heq.symm
    · intro e he
      rcases List.mem_cons.mp he with rfl | he
      · refine ⟨rfl, rfl, x, ?_, rfl⟩
        simp [ofTransmitter]
      · have hid : e.id ∈ rest.map (·.data.id) := (ih2 e.id).mp (List.mem_map_of_mem he)
        obtain ⟨m, hm, hme⟩ := List.mem_map.mp hid
        have hlt : x.data.id < e.id := by rw [← hme]; exact ((hmemrest m).mp hm).2
        rw [hof e.id hlt]
        exact ih3 e he

theorem ofTransmitter_perm {l l' : List RadioMeasurement} (h : l.Perm l') (id : String) :
    (ofTransmitter id l).Perm (ofTransmitter id l') := h.filter _

theorem mean_perm {l l' : List ℝ} (h : l.Perm l') : mean l = mean l' := by
  simp only [mean, h.sum_eq, h.length_eq]

theorem mean_bounds {l : List ℝ} (hne : l ≠ []) : ∃ lo ∈ l, ∃ hi ∈ l, lo ≤ mean l ∧ mean l ≤ hi := by
  have hlen : (0 : ℝ) < l.length := by
    exact_mod_cast List.length_pos_of_ne_nil hne
  by_contra hcon
  push Not at hcon
  have hlow : (∃ lo ∈ l, lo ≤ mean l) ∨ ∀ x ∈ l, mean l < x := by
    by_cases h : ∃ lo ∈ l, lo ≤ mean l
    · exact .inl h
    · push Not at h; exact .inr h
  have hm : mean l * l.length = l.sum := by rw [mean, div_mul_cancel₀ _ hlen.ne']
  rcases hlow with ⟨lo, hlo, hle⟩ | hall
  · have hall : ∀ x ∈ l, x < mean l := fun x hx => hcon lo hlo x hx hle
    have hs := List.sum_lt_sum_of_ne_nil hne (f := id) (g := fun _ => mean l) hall
    simp at hs
    linarith [mul_comm (mean l) l.length]
  · have hs := List.sum_lt_sum_of_ne_nil hne (f := fun _ => mean l) (g := id) hall
    simp at hs
    linarith [mul_comm (mean l) l.length]

theorem known_unique {ls : List Level} {tx : String} {t t' : Transmitter XYZPoint}
    (h : Known ls tx t) (h' : Known ls tx t') : t = t' := by
  obtain ⟨l, hl, -, ht⟩ := h
  obtain ⟨l', hl', -, ht'⟩ := h'
  rw [hl] at hl'
  cases hl'
  rw [ht] at ht'
  exact Option.some.inj ht'

theorem lookup_cases (ls : List Level) (huniq : (ls.map Level.id).Nodup) (tx : String) :
    (findLevelByTransmitterId (collect ls) tx = none ∧ ∀ t, ¬ Known ls tx t) ∨
    ∃ l t, findLevelByTransmitterId (collect ls) tx = some l.id ∧ level (collect ls) l.id = some l ∧
      hasLevel (collect ls) l.id = true ∧ l.containsTransmitter tx = true ∧ l.transmitter tx = some t ∧
      Known ls tx t := by
  cases hf : ls.find? (fun l => l.containsTransmitter tx) with
  | none =>
    refine .inl ⟨?_, ?_⟩
    · simp [findLevelByTransmitterId, collect_levels, hf]
    · rintro t ⟨l, hl, -⟩
      rw [hf] at hl; cases hl
  | some l =>
    right
    have hfind : findLevelByTransmitterId (collect ls) tx = some l.id := by
      simp [findLevelByTransmitterId, collect_levels, hf]
    have hc : l.containsTransmitter tx = true := by
      have := List.find?_some hf
      simpa using this
    obtain ⟨l', t, hl', -⟩ := C13_two_step_lookup ls huniq tx l.id hfind
    obtain ⟨hid', -⟩ := C12_first_wins ls l.id l' hl'
    have hll : l' = l := by
      rw [(C12_lookup ls l.id).2.2.1] at hl'
      exact List.inj_on_of_nodup_map huniq (List.mem_of_find?_eq_some hl') (List.mem_of_find?_eq_some hf) hid'
    subst hll
    have hhas : hasLevel (collect ls) l'.id = true := by
      by_contra hno
      rw [Bool.not_eq_true] at hno
      rw [((C12_lookup ls l'.id).2.2.2).mpr hno] at hl'
      cases hl'
    have hc2 := hc
    unfold Level.containsTransmitter at hc2
    obtain ⟨t', ht'⟩ := Option.isSome_iff_exists.mp hc2
    exact ⟨l', t', hfind, hl', hhas, hc, ht', l', hf, StdMap.mem_of_find? ht', ht'⟩

theorem mem_takeWhile_or_dropWhile {α : Type*} (p : α → Bool) (l : List α) : l.takeWhile p ++ l.dropWhile p = l :=
  List.takeWhile_append_dropWhile

/-- Insertion sorts in place of the three `std::sort` calls. -/
noncomputable def insertionSorts : Sorts :=
  ⟨List.insertionSort (fun a b => a.data.id ≤ b.data.id), List.insertionSort (fun a b => a.ts ≤ b.ts),
   List.insertionSort (fun a b => a.rssi ≤ b.rssi)⟩

theorem insertionSorts_lawful : insertionSorts.Lawful :=
  ⟨sortsBy_insertionSort _, sortsBy_insertionSort _, sortsBy_insertionSort _⟩

theorem runBuf_snoc (s : Sorts) (cfg : BufferCfg) (ops : List BufOp) (op : BufOp) :
    runBuf s cfg (ops ++ [op]) = stepBuf s cfg (runBuf s cfg ops) op := by simp [runBuf]

theorem added_append (a b : List BufOp) : added (a ++ b) = added a ++ added b := by
  induction a with
  | nil => rfl
  | cons op a ih => cases op <;> simp [added, ih]

theorem runBuf_append (s : Sorts) (cfg : BufferCfg) (a b : List BufOp) :
    runBuf s cfg (a ++ b) = b.foldl (stepBuf s cfg) (runBuf s cfg a) := by simp [runBuf]

/-- The newest time stamp the buffer knows is the one of the last added measurement. -/
theorem runBuf_currentTs (s : Sorts) (cfg : BufferCfg) (ops : List BufOp) :
    (runBuf s cfg ops).currentTs = ((added ops).getLast?.map Stamped.ts).getD 0 := by
  induction ops using List.reverseRecOn with
  | nil => rfl
  | append_singleton ops op ih =>
    rw [runBuf_snoc, added_append]
    cases op with
    | add m => simp [stepBuf, addMeasurement, added]
    | extract t =>
      rw [show added [BufOp.extract t] = [] from rfl, List.append_nil, ← ih]
      simp only [stepBuf, extractMeasurements]
      split_ifs <;> rfl

/-- The step time known after an extraction call. -/
def stepTs (b : BufferState) (t : Int) : Int := if t > 0 then t else b.lastStepTs

theorem extract_fail (s : Sorts) (cfg : BufferCfg) (b : BufferState) (t : Int)
    (h : b.currentTs - b.lastExtractionTs < cfg.shiftMs) :
    extractMeasurements s cfg b t = ([], { b with lastStepTs := stepTs b t }) := by
  unfold extractMeasurements stepTs
  by_cases ht : t > 0 <;> simp [ht, h]

theorem extract_pass (s : Sorts) (cfg : BufferCfg) (b : BufferState) (t : Int)
    (h : ¬ b.currentTs - b.lastExtractionTs < cfg.shiftMs) :
    extractMeasurements s cfg b t = (averageLoop (s.byId b.measurements),
      { lastExtractionTs := b.currentTs, currentTs := b.currentTs, lastStepTs := stepTs b t,
        measurements :=
          if cfg.useStops = true ∧ stepTs b t > 0 ∧ b.currentTs - stepTs b t > cfg.stopMs then s.byId b.measurements
          else if cfg.keepMs = 0 then []
          else (s.byTs (s.byId b.measurements)).dropWhile (fun rm => !decide (rm.ts ≥ b.currentTs - cfg.keepMs)) }) := by
  unfold extractMeasurements stepTs
  by_cases ht : t > 0
  · simp only [ht, if_true, h, if_false, Bool.and_eq_true, decide_eq_true_eq, true_and, and_assoc]
    split_ifs <;> rfl
  · simp only [ht, if_false, h, Bool.and_eq_true, decide_eq_true_eq, and_assoc]
    split_ifs <;> rfl

/-- Extraction never moves the last extraction time backwards (non-negative shift). -/
theorem extract_lastExtraction_mono (s : Sorts) (cfg : BufferCfg) (hs : 0 ≤ cfg.shiftMs) (b : BufferState) (t : Int) :
    b.lastExtractionTs ≤ (extractMeasurements s cfg b t).2.lastExtractionTs := by
  by_cases h : b.currentTs - b.lastExtractionTs < cfg.shiftMs
  · rw [extract_fail s cfg b t h]
  · rw [extract_pass s cfg b t h]
    simp only
    omega

theorem runBuf_lastExtraction_mono (s : Sorts) (cfg : BufferCfg) (hs : 0 ≤ cfg.shiftMs) (ops : List BufOp) (b : BufferState)
    (hb : b.currentTs ≠ 0) (hts : ∀ m ∈ added ops, m.ts ≠ 0) :
    b.lastExtractionTs ≤ (ops.foldl (stepBuf s cfg) b).lastExtractionTs := by
  induction ops generalizing b with
  | nil => exact le_refl _
  | cons op ops ih =>
    rw [List.foldl_cons]
    cases op with
    | add m =>
      have hm : m.ts ≠ 0 := hts m (by simp [added])
      refine le_trans ?_ (ih _ ?_ (fun x hx => hts x (by simp [added, hx])))
      · simp [stepBuf, addMeasurement, hb]
      · simp [stepBuf, addMeasurement, hm]
    | extract t =>
      refine le_trans (extract_lastExtraction_mono s cfg hs b t) (ih _ ?_ (fun x hx => hts x (by simpa [added] using hx)))
      by_cases h : b.currentTs - b.lastExtractionTs < cfg.shiftMs
      · rw [extract_fail s cfg b t h]; exact hb
      · rw [extract_pass s cfg b t h]; exact hb

theorem mapM_forall₂ {α β : Type} (f : α → Option β) (l : List α) (out : List β) :
    l.mapM f = some out ↔ List.Forall₂ (fun a b => f a = some b) l out := by
  induction l generalizing out with
  | nil => simp [eq_comm]
  | cons a l ih =>
    rw [List.mapM_cons]
    constructor
    · intro h
      simp only [Option.bind_eq_bind, Option.bind_eq_some_iff, Option.pure_def, Option.some.injEq] at h
      obtain ⟨b, hb, bs, hbs, rfl⟩ := h
      exact .cons hb ((ih bs).mp hbs)
    · intro h
      cases h with
      | cons hb hbs => rw [hb, (ih _).mpr hbs]; rfl

theorem gate_bool (A B : Prop) [Decidable A] [Decidable B] (r v sup : Bool) :
    ((if A ∧ r = false then false else if ¬ A ∧ ¬ B then false else v) && sup) = true ↔
      sup = true ∧ (A → r = true) ∧ (¬ A → B) ∧ v = true := by
  by_cases hA : A <;> by_cases hB : B <;> cases r <;> cases v <;> cases sup <;> simp [hA, hB]

/-- `getValidSignalEntry` without its Boolean plumbing. -/
theorem getValid_some (cfg : Cfg) (e v : RadioData) : getValidSignalEntry cfg e = some v ↔
    v = e ∧ isSignalTypeSupported cfg e.type = true ∧
    (cfg.measurementType = .RSSI → isRssiValid cfg e.rssi = true) ∧
    (cfg.measurementType ≠ .RSSI → e.type = .WIFI_RTT) ∧
    (cfg.useUnknownTxs = true ∨ ((findLevelByTransmitterId cfg.levelIndex e.id).isSome = true ∧
      isTransmitterSupported cfg e.id = true)) := by
  unfold getValidSignalEntry
  simp only []
  generalize hv : (cfg.useUnknownTxs || ((findLevelByTransmitterId cfg.levelIndex e.id).isSome &&
    isTransmitterSupported cfg e.id)) = w
  have hw : w = true ↔ (cfg.useUnknownTxs = true ∨ ((findLevelByTransmitterId cfg.levelIndex e.id).isSome = true ∧
      isTransmitterSupported cfg e.id = true)) := by rw [← hv, Bool.or_eq_true, Bool.and_eq_true]
  rw [← hw, ← gate_bool]
  by_cases h : ((if cfg.measurementType = .RSSI ∧ isRssiValid cfg e.rssi = false then false
      else if ¬ cfg.measurementType = .RSSI ∧ ¬ e.type = .WIFI_RTT then false else w) &&
      isSignalTypeSupported cfg e.type) = true
  · rw [if_pos h]
    simp only [Option.some.injEq]
    exact ⟨fun h' => ⟨h'.symm, h⟩, fun h' => h'.1.symm⟩
  · rw [if_neg h]
    exact ⟨fun h' => (by simp at h'), fun h' => absurd h'.2 h⟩

theorem isRssiValid_iff (cfg : Cfg) (r : ℝ) : isRssiValid cfg r = true ↔ cfg.cutOffRssi < r ∧ r < 0 := by
  simp only [isRssiValid, Bool.and_eq_true, decide_eq_true_eq, gt_iff_lt]; exact and_comm

theorem isSignalTypeSupported_iff (c : LevelCollector) (cs : CommonSettings) (t : RadioType) :
    isSignalTypeSupported (mkCfg c cs) t = true ↔ TypeEnabled cs t := by
  cases hs : cs.signalsToUse <;> cases t <;>
    simp [isSignalTypeSupported, mkCfg, TypeEnabled, checkUseWifi, checkUseBle, hs]

theorem transmitter_ok_iff (ls : List Level) (huniq : (ls.map Level.id).Nodup) (cs : CommonSettings) (tx : String) :
    ((findLevelByTransmitterId (collect ls) tx).isSome = true ∧
      isTransmitterSupported (mkCfg (collect ls) cs) tx = true) ↔
      ∃ t, Known ls tx t ∧ (t.type = .LOCATOR ↔ cs.useTracking = true) := by
  rcases lookup_cases ls huniq tx with ⟨hf, hno⟩ | ⟨l, t, hf, hl, hh, hc, ht, hk⟩
  · rw [hf]
    constructor
    · rintro ⟨h, -⟩; simp at h
    · rintro ⟨t, hk, -⟩; exact absurd hk (hno t)
  · have hsup : isTransmitterSupported (mkCfg (collect ls) cs) tx = true ↔
        (t.type = .LOCATOR ↔ cs.useTracking = true) := by
      simp only [isTransmitterSupported, mkCfg, hf, hl, hh, hc, ht, Bool.not_true, Bool.false_eq_true, if_false]
      by_cases htr : cs.useTracking = true
      · simp [htr]
      · simp [htr]
    rw [hsup, hf]
    constructor
    · rintro ⟨-, h⟩; exact ⟨t, hk, h⟩
    · rintro ⟨t', hk', h⟩
      obtain rfl := known_unique hk hk'
      exact ⟨rfl, h⟩

theorem closestAps_mem (s : Sorts) (hs : s.Lawful) (cfg : Cfg) (l : List RadioData) (a : RadioData)
    (ha : a ∈ closestAps s cfg l) : a ∈ l := by
  have key : ∀ {x}, x ∈ (s.byRssi l.reverse).reverse → x ∈ l := by
    intro x hx
    rw [List.mem_reverse] at hx
    exact List.mem_reverse.mp ((hs.byRssi.perm _).mem_iff.mp hx)
  simp only [closestAps] at ha
  split_ifs at ha
  · exact key (List.mem_of_mem_take ha)
  · exact key ha
  · exact ha

/-- Only the distance of an entry is ever rewritten. -/
theorem withDistance_fields (cfg : Cfg) (a e : RadioData) (h : withDistance cfg a = some e) :
    e = { a with distance := e.distance } := by
  unfold withDistance at h
  split_ifs at h
  · split at h
    · cases h; rfl
    · split at h
      · cases h
      · split at h
        · cases h
        · cases h; rfl
  · cases h; rfl

end Verif.Radio
