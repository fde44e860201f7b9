import Verif.Bias.Spec
import Verif.Nav.Safety
import Verif.Knn.EstimatorProps

/-!
# C129: the two clients, part by part
-/

namespace Verif.Bias

open Verif Verif.Levels Verif.Nav
open Verif.Knn (Result shift)

/-! ## Related results -/

/-- The two computations end in the same way, with related values. -/
def Rel {α β : Type} (R : α → β → Prop) : Result α → Result β → Prop
  | .ok a, .ok b => R a b
  | .throws, .throws => True
  | .undefined, .undefined => True
  | _, _ => False

theorem rel_andThen {α β γ δ : Type} {R : α → β → Prop} {S : γ → δ → Prop} {r : Result α} {r' : Result β} {f : α → Result γ}
    {f' : β → Result δ} (h : Rel R r r') (hf : ∀ a b, R a b → Rel S (f a) (f' b)) : Rel S (andThen r f) (andThen r' f') := by
  cases r <;> cases r' <;> first | exact hf _ _ h | exact h.elim | trivial

theorem rel_eq {α : Type} (r : Result α) : Rel Eq r r := by cases r <;> simp [Rel]

theorem rel_same {α β : Type} {S : α → β → Prop} {r : Result α} {r' : Result β} {γ : Type} {q q' : Result γ} {f : γ → Result α}
    {f' : γ → Result β} (hr : r = andThen q f) (hr' : r' = andThen q' f') (hq : q' = q) (hf : ∀ a, Rel S (f a) (f' a)) : Rel S r r' := by
  subst hr hr' hq
  exact rel_andThen (rel_eq _) (fun a b e => e ▸ hf a)

/-! ## The preprocessor -/

/-- A stored signal with the offset. -/
noncomputable def offMsr (d : ℝ) (m : RadioMeasurement) : RadioMeasurement := ⟨shift d m.data, m.ts⟩

/-- The stored signals with the offset. -/
noncomputable def offBuf (d : ℝ) (b : Radio.BufferState) : Radio.BufferState := { b with measurements := b.measurements.map (offMsr d) }

/-- The preprocessor with the offset. -/
noncomputable def offPre (d : ℝ) (s : Radio.State) : Radio.State := { s with buffer := offBuf d s.buffer }

/-- The client with the offset. -/
noncomputable def offState (d : ℝ) (s : State) : State := { s with pre := offPre d s.pre }

theorem add_off (d : ℝ) (cfg : Radio.BufferCfg) (b : Radio.BufferState) (m : RadioMeasurement) :
    Radio.addMeasurement cfg (offBuf d b) (offMsr d m) = offBuf d (Radio.addMeasurement cfg b m) := by
  have e : ({ (offMsr d m) with data := { (offMsr d m).data with rssi := (offMsr d m).data.rssi + cfg.bias } } : RadioMeasurement) =
      offMsr d { m with data := { m.data with rssi := m.data.rssi + cfg.bias } } := by
    simp only [offMsr, shift]
    congr 2
    ring
  unfold Radio.addMeasurement
  rw [e]
  by_cases h : b.currentTs = 0
  · have h' : (offBuf d b).currentTs = 0 := h
    simp only [if_pos h, if_pos h']
    simp [offBuf, offMsr]
  · have h' : ¬ (offBuf d b).currentTs = 0 := h
    simp only [if_neg h, if_neg h']
    simp [offBuf, offMsr]

theorem valid_off {d : ℝ} {c : LevelCollector} {cs : CommonSettings} {r : RadioData}
    (h : cs.measurementType = .RSSI → ((r.rssi < 0 ∧ cs.sigCutOffRss < r.rssi) ↔ (r.rssi + d < 0 ∧ cs.sigCutOffRss < r.rssi + d))) :
    Radio.getValidSignalEntry (Radio.mkCfg c cs) (shift d r) = (Radio.getValidSignalEntry (Radio.mkCfg c cs) r).map (shift d) := by
  have e : (Radio.mkCfg c cs).measurementType = .RSSI →
      Radio.isRssiValid (Radio.mkCfg c cs) (shift d r).rssi = Radio.isRssiValid (Radio.mkCfg c cs) r.rssi := by
    intro hm
    have := h hm
    unfold Radio.isRssiValid
    rw [← Bool.decide_and, ← Bool.decide_and]
    exact decide_eq_decide.mpr this.symm
  unfold Radio.getValidSignalEntry
  have e2 : ((Radio.mkCfg c cs).measurementType = .RSSI ∧ Radio.isRssiValid (Radio.mkCfg c cs) (shift d r).rssi = false) ↔
      ((Radio.mkCfg c cs).measurementType = .RSSI ∧ Radio.isRssiValid (Radio.mkCfg c cs) r.rssi = false) :=
    ⟨fun ⟨a, b⟩ => ⟨a, e a ▸ b⟩, fun ⟨a, b⟩ => ⟨a, (e a).symm ▸ b⟩⟩
  have e3 : (shift d r).id = r.id := rfl
  have e4 : (shift d r).type = r.type := rfl
  simp only [e2, e3, e4]
  split_ifs <;> rfl

theorem update_off {d : ℝ} {c : LevelCollector} {cs : CommonSettings} (s : Radio.State) {m : Measurement} (h : SameHeard cs d m) :
    Radio.updateMeasurements (Radio.mkCfg c cs) (offPre d s) (off d m) = offPre d (Radio.updateMeasurements (Radio.mkCfg c cs) s m) := by
  obtain ⟨data, ts⟩ := m
  cases data with
  | radio r =>
    have hv := valid_off (c := c) (h r rfl)
    have e : off d ⟨.radio r, ts⟩ = ⟨.radio (shift d r), ts⟩ := rfl
    rw [e]
    unfold Radio.updateMeasurements
    simp only [hv]
    cases Radio.getValidSignalEntry (Radio.mkCfg c cs) r with
    | none => rfl
    | some v =>
      have := add_off d (Radio.mkCfg c cs).buffer s.buffer ⟨v, ts⟩
      simp only [Option.map_some, offPre]
      rw [← this]
      rfl
  | sensor x => rfl
  | nmea x => rfl

theorem foldl_off (d : ℝ) (l : List RadioMeasurement) (a : ℝ) :
    (l.map (offMsr d)).foldl (fun sum m => sum + m.data.rssi) (a + 0) = l.foldl (fun sum m => sum + m.data.rssi) a + l.length * d := by
  induction l generalizing a with
  | nil => simp
  | cons x l ih =>
    have e : a + 0 + (offMsr d x).data.rssi = (a + x.data.rssi + d) + 0 := by simp only [offMsr, shift]; ring
    have hs : ∀ (l : List RadioMeasurement) (a b : ℝ), l.foldl (fun sum m => sum + m.data.rssi) (a + b) =
        l.foldl (fun sum m => sum + m.data.rssi) a + b := by
      intro l
      induction l with
      | nil => intro a b; rfl
      | cons y l ih => intro a b; simp only [List.foldl_cons]; rw [show a + b + y.data.rssi = a + y.data.rssi + b by ring, ih]
    rw [List.map_cons, List.foldl_cons, List.foldl_cons, e, ih, hs, List.length_cons]
    push_cast
    ring

theorem average_off (d : ℝ) (l : List RadioMeasurement) : Radio.averageLoop (l.map (offMsr d)) = (Radio.averageLoop l).map (shift d) := by
  induction hn : l.length using Nat.strong_induction_on generalizing l with
  | _ n ih =>
    cases l with
    | nil => simp [Radio.averageLoop]
    | cons x xs =>
      rw [List.map_cons, Radio.averageLoop, Radio.averageLoop, List.map_cons, List.takeWhile_map, List.dropWhile_map]
      have ec : ((fun m : RadioMeasurement => !decide ((offMsr d x).data.id < m.data.id)) ∘ offMsr d) =
          (fun m => !decide (x.data.id < m.data.id)) := by
        funext m; rfl
      rw [ec]
      congr 1
      · generalize xs.takeWhile (fun m => !decide (x.data.id < m.data.id)) = l
        have h1 := foldl_off d (x :: l) 0
        rw [add_zero] at h1
        have hpos : ((x :: l).length : ℝ) ≠ 0 := by simp; positivity
        unfold Radio.averageRange
        dsimp only
        rw [← List.map_cons, h1, List.length_map, divide_eq hpos, divide_eq hpos, divide_eq hpos, divide_eq hpos, add_div,
          mul_div_cancel_left₀ _ hpos, List.foldl_map]
        rfl
      · refine ih _ ?_ _ rfl
        rw [← hn, List.length_cons]
        exact Nat.lt_succ_of_le (List.dropWhile_suffix _).length_le

theorem extract_off {s : Radio.Sorts} (hb : OffsetBlind s) (d : ℝ) (cfg : Radio.BufferCfg) (b : Radio.BufferState) (last : Int) :
    (Radio.extractMeasurements s cfg (offBuf d b) last).1 = (Radio.extractMeasurements s cfg b last).1.map (shift d) ∧
      (Radio.extractMeasurements s cfg (offBuf d b) last).2 = offBuf d (Radio.extractMeasurements s cfg b last).2 := by
  have hid : ∀ l, s.byId (l.map (offMsr d)) = (s.byId l).map (offMsr d) := hb.byId d
  have hts : ∀ l, s.byTs (l.map (offMsr d)) = (s.byTs l).map (offMsr d) := hb.byTs d
  unfold Radio.extractMeasurements
  by_cases h0 : last > 0
  · simp only [if_pos h0, offBuf]
    by_cases h1 : b.currentTs - b.lastExtractionTs < cfg.shiftMs
    · simp only [if_pos h1]
      exact ⟨rfl, trivial⟩
    · simp only [if_neg h1, hid, average_off]
      split_ifs
      · exact ⟨rfl, rfl⟩
      · exact ⟨rfl, rfl⟩
      · refine ⟨rfl, ?_⟩
        rw [hts, List.dropWhile_map]
        rfl
  · simp only [if_neg h0, offBuf]
    by_cases h1 : b.currentTs - b.lastExtractionTs < cfg.shiftMs
    · simp only [if_pos h1]
      exact ⟨rfl, trivial⟩
    · simp only [if_neg h1, hid, average_off]
      split_ifs
      · exact ⟨rfl, rfl⟩
      · exact ⟨rfl, rfl⟩
      · refine ⟨rfl, ?_⟩
        rw [hts, List.dropWhile_map]
        rfl

theorem closest_off {s : Radio.Sorts} (hb : OffsetBlind s) (d : ℝ) (cfg : Radio.Cfg) (l : List RadioData) :
    Radio.closestAps s cfg (l.map (shift d)) = (Radio.closestAps s cfg l).map (shift d) := by
  have hr : ∀ l, s.byRssi (l.map (shift d)) = (s.byRssi l).map (shift d) := hb.byRssi d
  unfold Radio.closestAps
  split_ifs with h
  · simp only [← List.map_reverse, hr, List.length_map]
    split_ifs
    · rw [List.map_take]
    · rfl
  · rfl

/-- A signal without its distance. -/
def strip (m : RadioData) : RadioData := { m with distance := 0 }

/-- The same signals, the second with the offset, whatever the distances. -/
def Off (d : ℝ) (a b : List RadioData) : Prop := b.map strip = (a.map strip).map (shift d)

theorem off_nil {d : ℝ} : Off d [] [] := rfl

theorem off_cons {d : ℝ} {a b : List RadioData} {x y : RadioData} (h : Off d a b) (hx : strip y = shift d (strip x)) :
    Off d (x :: a) (y :: b) := by
  unfold Off at *
  simp only [List.map_cons, h, hx]

theorem distance_off (d : ℝ) (cfg : Radio.Cfg) (m : RadioData) :
    (Radio.withDistance cfg m = none ∧ Radio.withDistance cfg (shift d m) = none) ∨
      ∃ x y, Radio.withDistance cfg m = some x ∧ Radio.withDistance cfg (shift d m) = some y ∧ strip y = shift d (strip x) := by
  have e1 : (shift d m).type = m.type := rfl
  have e2 : (shift d m).id = m.id := rfl
  unfold Radio.withDistance
  rw [e1, e2]
  by_cases h : m.type ≠ .WIFI_RTT
  · rw [if_pos h, if_pos h]
    cases findLevelByTransmitterId cfg.levelIndex m.id with
    | none => exact .inr ⟨_, _, rfl, rfl, rfl⟩
    | some i =>
      dsimp only
      cases level cfg.levelIndex i with
      | none => exact .inl ⟨rfl, rfl⟩
      | some l =>
        dsimp only
        cases l.transmitter m.id with
        | none => exact .inl ⟨rfl, rfl⟩
        | some t => exact .inr ⟨_, _, rfl, rfl, rfl⟩
  · rw [if_neg h, if_neg h]
    exact .inr ⟨_, _, rfl, rfl, rfl⟩

theorem distances_off (d : ℝ) (cfg : Radio.Cfg) (l : List RadioData) :
    (l.mapM (Radio.withDistance cfg) = none ∧ (l.map (shift d)).mapM (Radio.withDistance cfg) = none) ∨
      ∃ x y, l.mapM (Radio.withDistance cfg) = some x ∧ (l.map (shift d)).mapM (Radio.withDistance cfg) = some y ∧ Off d x y := by
  induction l with
  | nil => exact .inr ⟨[], [], rfl, rfl, off_nil⟩
  | cons m l ih =>
    rw [List.map_cons, List.mapM_cons, List.mapM_cons]
    rcases distance_off d cfg m with ⟨h1, h2⟩ | ⟨x, y, h1, h2, h3⟩
    · rw [h1, h2]
      exact .inl ⟨rfl, rfl⟩
    · rw [h1, h2]
      rcases ih with ⟨k1, k2⟩ | ⟨xs, ys, k1, k2, k3⟩
      · rw [k1, k2]
        exact .inl ⟨rfl, rfl⟩
      · rw [k1, k2]
        exact .inr ⟨x :: xs, y :: ys, rfl, rfl, off_cons k3 h3⟩

/-! ## The estimators -/

theorem weights_strip (fps : List Knn.Fingerprint) (msr : List RadioData) (b : Bool) :
    Knn.calcRpWeightsKnn fps (msr.map strip) b = Knn.calcRpWeightsKnn fps msr b := by
  unfold Knn.calcRpWeightsKnn Knn.calcTransmittersWeights Knn.rpStatistics
  rw [List.foldl_map, List.foldl_map]
  rfl

theorem find_below {ν : Type} {a : List (String × ν)} {k : String} (h : ∀ p ∈ a, k < p.1) : StdMap.find? a k = none := by
  induction a with
  | nil => rfl
  | cons x a ih =>
    obtain ⟨k', v⟩ := x
    have := h (k', v) (by simp)
    rw [StdMap.find?, if_neg (ne_of_gt this)]
    exact ih (fun p hp => h p (by simp [hp]))

theorem sorted_ext {ν : Type} {a b : List (String × ν)} (ha : StdMap.Sorted a) (hb : StdMap.Sorted b)
    (h : ∀ k, StdMap.find? a k = StdMap.find? b k) : a = b := by
  induction a generalizing b with
  | nil =>
    cases b with
    | nil => rfl
    | cons y b =>
      have := h y.1
      simp [StdMap.find?] at this
  | cons x a ih =>
    cases b with
    | nil =>
      have := h x.1
      simp [StdMap.find?] at this
    | cons y b =>
      obtain ⟨k, v⟩ := x
      obtain ⟨k', v'⟩ := y
      have ha' := List.pairwise_cons.mp ha
      have hb' := List.pairwise_cons.mp hb
      have hk : k = k' := by
        rcases lt_trichotomy k k' with hlt | e | hlt
        · have h1 := h k
          rw [find_below (a := (k', v') :: b) (k := k)] at h1
          · simp [StdMap.find?] at h1
          · intro p hp
            rcases List.mem_cons.mp hp with rfl | hp
            · exact hlt
            · exact hlt.trans (hb'.1 p hp)
        · exact e
        · have h1 := h k'
          rw [find_below (a := (k, v) :: a) (k := k')] at h1
          · simp [StdMap.find?] at h1
          · intro p hp
            rcases List.mem_cons.mp hp with rfl | hp
            · exact hlt
            · exact hlt.trans (ha'.1 p hp)
      subst hk
      have hv := h k
      simp only [StdMap.find?, if_true, Option.some.injEq] at hv
      subst hv
      congr 1
      refine ih ha'.2 hb'.2 (fun q => ?_)
      by_cases hq : k = q
      · subst hq
        rw [find_below (fun p hp => ha'.1 p hp), find_below (fun p hp => hb'.1 p hp)]
      · have := h q
        simpa only [StdMap.find?, if_neg hq] using this

theorem weights_off {d : ℝ} (fps : List Knn.Fingerprint) {a b : List RadioData} (h : Off d a b) :
    Knn.calcRpWeightsKnn fps b true = Knn.calcRpWeightsKnn fps a true := by
  rw [← weights_strip fps a, ← weights_strip fps b, h]
  exact sorted_ext (Knn.calcRpWeightsKnn_sorted _ _ _) (Knn.calcRpWeightsKnn_sorted _ _ _) (Knn.C74_bias_invariance _ _ _)

theorem off_length {d : ℝ} {a b : List RadioData} (h : Off d a b) : b.length = a.length := by
  have := congrArg List.length h
  simpa using this

theorem off_filter {d : ℝ} {a b : List RadioData} (h : Off d a b) (p : String → Bool) :
    Off d (a.filter fun m => p m.id) (b.filter fun m => p m.id) := by
  unfold Off at *
  have e1 : ∀ l : List RadioData, (l.filter fun m => p m.id).map strip = (l.map strip).filter fun m => p m.id := by
    intro l; rw [List.filter_map]; rfl
  have e2 : ∀ l : List RadioData, (l.filter fun m => p m.id).map (shift d) = (l.map (shift d)).filter fun m => p m.id := by
    intro l; rw [List.filter_map]; rfl
  rw [e1, e1, e2, h]

theorem off_ids {d : ℝ} {a b : List RadioData} (h : Off d a b) : b.map RadioData.id = a.map RadioData.id := by
  have e1 : ∀ l : List RadioData, l.map RadioData.id = (l.map strip).map RadioData.id := by intro l; rw [List.map_map]; rfl
  rw [e1, e1 a, h, List.map_map]
  rfl

theorem position_off {d : ℝ} {k : Knn.Cfg} (hk : k.useDiffMode = true) (p : Position) (level : Level) (ts : Int) {a b : List RadioData}
    (h : Off d a b) : Knn.calculatePosition k p level ts b = Knn.calculatePosition k p level ts a := by
  have e0 : b.isEmpty = a.isEmpty := by
    have := off_length h
    cases a <;> cases b <;> simp_all
  have ew : ∀ ids fps, Knn.calcRpWeightsKnn fps (Knn.getWhitelistedMeasurements ids b) true =
      Knn.calcRpWeightsKnn fps (Knn.getWhitelistedMeasurements ids a) true := fun ids fps => weights_off fps (off_filter h _)
  have el : ∀ ids, (Knn.getWhitelistedMeasurements ids b).length = (Knn.getWhitelistedMeasurements ids a).length :=
    fun ids => off_length (off_filter h _)
  unfold Knn.calculatePosition
  simp only [e0, hk, ew, el]

theorem score_off {d : ℝ} {a b : List RadioData} (h : Off d a b) (fps : List Knn.Fingerprint) :
    (0 < Knn.calcWeight b fps) ↔ (0 < Knn.calcWeight a fps) := by
  rw [Knn.calcWeight_eq, Knn.calcWeight_eq, (Knn.C28_score b fps).2, (Knn.C28_score a fps).2]
  have hi := off_ids h
  have key : ∀ l : List RadioData, (∃ m ∈ l, ∃ f ∈ fps, f.tx = m.id) ↔ ∃ i ∈ l.map RadioData.id, ∃ f ∈ fps, f.tx = i := by
    intro l
    constructor
    · rintro ⟨m, hm, f, hf, e⟩
      exact ⟨m.id, List.mem_map_of_mem hm, f, hf, e⟩
    · rintro ⟨i, hi, f, hf, e⟩
      obtain ⟨m, hm, rfl⟩ := List.mem_map.mp hi
      exact ⟨m, hm, f, hf, e⟩
  rw [key, key, hi]

theorem floor_off {d : ℝ} {best : Bool} {maps : List (String × List Knn.Fingerprint)} {c : LevelCollector}
    (hc : best = true ∨ c.levels.length ≤ 1) {a b : List RadioData} (h : Off d a b) :
    Knn.detectByRadiomap best maps c b = Knn.detectByRadiomap best maps c a := by
  unfold Knn.detectByRadiomap
  rcases hc with rfl | hc
  · have e : Knn.detectStep true maps b = Knn.detectStep true maps a := by
      funext x l
      unfold Knn.detectStep Knn.calcWeightBestRp
      simp only [weights_off _ h, if_true]
    rw [e]
  · cases best with
    | true =>
      have e : Knn.detectStep true maps b = Knn.detectStep true maps a := by
        funext x l
        unfold Knn.detectStep Knn.calcWeightBestRp
        simp only [weights_off _ h, if_true]
      rw [e]
    | false =>
      match hl : c.levels, hc with
      | [], _ => rfl
      | [l], _ =>
        simp only [List.foldlM_cons, List.foldlM_nil, bind_pure]
        unfold Knn.detectStep
        cases StdMap.find? maps l.id with
        | none => rfl
        | some rm =>
          simp only [Bool.false_eq_true, if_false, gt_iff_lt, Option.map_some, Option.some.injEq]
          have := score_off h rm
          by_cases hp : 0 < Knn.calcWeight a rm
          · rw [if_pos hp, if_pos (this.mpr hp)]
          · rw [if_neg hp, if_neg (fun g => hp (this.mp g))]
      | _ :: _ :: _, hc => simp at hc

end Verif.Bias
