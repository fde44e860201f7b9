import Verif.Radio.Lemmas

/-!
# C16-C23: radio measurement admission, averaging window, closest access points, distances
-/

namespace Verif.Radio

open Verif.Levels

/-! ## C16 -/

/-- **C16.** On a map with unique level ids a radio message adds exactly itself, stamped with the
message time, to the window iff it is admissible, and otherwise leaves the window alone. -/
theorem C16_admission (ls : List Level) (huniq : (ls.map Level.id).Nodup) (cs : CommonSettings)
    (st : State) (e : RadioData) (ts : Int) :
    (Admissible ls cs e →
      (updateMeasurements (mkCfg (collect ls) cs) st ⟨.radio e, ts⟩).buffer.measurements =
        st.buffer.measurements ++ [⟨e, ts⟩] ∧
      (updateMeasurements (mkCfg (collect ls) cs) st ⟨.radio e, ts⟩).lastSignalTs = ts) ∧
    (¬ Admissible ls cs e →
      (updateMeasurements (mkCfg (collect ls) cs) st ⟨.radio e, ts⟩).buffer = st.buffer ∧
      (updateMeasurements (mkCfg (collect ls) cs) st ⟨.radio e, ts⟩).lastSignalTs = st.lastSignalTs) := by
  have hval : ∀ v, getValidSignalEntry (mkCfg (collect ls) cs) e = some v ↔ v = e ∧ Admissible ls cs e := by
    intro v
    rw [getValid_some, isSignalTypeSupported_iff, isRssiValid_iff]
    rw [show (mkCfg (collect ls) cs).levelIndex = collect ls from rfl, transmitter_ok_iff ls huniq cs e.id]
    exact Iff.rfl
  constructor
  · intro hA
    have hval := (hval e).mpr ⟨rfl, hA⟩
    simp only [updateMeasurements, hval]
    refine ⟨?_, trivial⟩
    simp only [addMeasurement]
    split_ifs <;> simp [mkCfg, createRadioMeasurementBuffer]
  · intro hA
    have hval : getValidSignalEntry (mkCfg (collect ls) cs) e = none := by
      cases h : getValidSignalEntry (mkCfg (collect ls) cs) e with
      | none => rfl
      | some v => exact absurd ((hval v).mp h).2 hA
    simp only [updateMeasurements, hval]
    exact ⟨trivial, trivial⟩

/-- Sensor and NMEA messages never touch the window or the time of the last signal. -/
theorem C16_other_messages (cfg : Cfg) (st : State) (d : SensorData) (n : NmeaData) (ts : Int) :
    (updateMeasurements cfg st ⟨.sensor d, ts⟩).buffer = st.buffer ∧
    (updateMeasurements cfg st ⟨.nmea n, ts⟩).buffer = st.buffer ∧
    (updateMeasurements cfg st ⟨.sensor d, ts⟩).lastSignalTs = st.lastSignalTs ∧
    (updateMeasurements cfg st ⟨.nmea n, ts⟩).lastSignalTs = st.lastSignalTs := ⟨rfl, rfl, rfl, rfl⟩

/-- A beacon with path loss parameters −59 and 10, for witnesses. -/
noncomputable def sampleTx : Transmitter XYZPoint := ⟨"tx", ⟨1, 2, 0⟩, ⟨-59, 10, 0⟩, .BEACON⟩

theorem sample_known : Known [bareLevel "A" [], bareLevel "B" [sampleTx]] "tx" sampleTx :=
  ⟨bareLevel "B" [sampleTx], rfl, by simp [bareLevel, Level.addTransmitters, sampleTx, StdMap.insert, StdMap.insertSorted], rfl⟩

/-- A beacon of the map, heard at −70 with default settings, is admitted; at −100 it is not. -/
example : Admissible [bareLevel "A" [], bareLevel "B" [sampleTx]] {} ⟨.BEACON, "tx", -70, 0, 0, 0⟩ ∧
    ¬ Admissible [bareLevel "A" [], bareLevel "B" [sampleTx]] {} ⟨.BEACON, "tx", -100, 0, 0, 0⟩ ∧
    ([bareLevel "A" [], bareLevel "B" [sampleTx]].map Level.id).Nodup := by
  refine ⟨⟨?_, ?_, ?_, .inr ⟨sampleTx, sample_known, ?_⟩⟩, ?_, ?_⟩
  · simp [TypeEnabled]
  · intro _; norm_num
  · intro h; exact absurd rfl h
  · simp [sampleTx]
  · rintro ⟨-, h, -⟩
    have := (h rfl).1
    norm_num at this
  · simp [bareLevel, Level.addTransmitters]

/-! ## C17 -/

/-- **C17.** When the gate is open the extraction returns exactly one entry per transmitter heard in
the window, ascending in the id; its rssi and distance are the means over that transmitter's
measurements in the window and its other fields are those of one of these measurements. -/
theorem C17_average (s : Sorts) (hs : s.Lawful) (cfg : BufferCfg) (b : BufferState) (t : Int)
    (hgate : cfg.shiftMs ≤ b.currentTs - b.lastExtractionTs) :
    let out := (extractMeasurements s cfg b t).1
    (out.map RadioData.id).Pairwise (· < ·) ∧
    (∀ id, id ∈ out.map RadioData.id ↔ ∃ m ∈ b.measurements, m.data.id = id) ∧
    ∀ e ∈ out,
      e.rssi = mean ((ofTransmitter e.id b.measurements).map (·.data.rssi)) ∧
      e.distance = mean ((ofTransmitter e.id b.measurements).map (·.data.distance)) ∧
      ∃ m ∈ b.measurements, m.data.id = e.id ∧ m.data.type = e.type ∧ m.data.power = e.power ∧
        m.data.stddev = e.stddev := by
  rw [extract_pass s cfg b t (by omega)]
  simp only
  have hperm := hs.byId.perm b.measurements
  obtain ⟨h1, h2, h3⟩ := averageLoop_spec _ (hs.byId.sorted b.measurements)
  refine ⟨h1, ?_, ?_⟩
  · intro id
    rw [h2, List.mem_map]
    constructor
    · rintro ⟨m, hm, rfl⟩; exact ⟨m, hperm.mem_iff.mp hm, rfl⟩
    · rintro ⟨m, hm, rfl⟩; exact ⟨m, hperm.mem_iff.mpr hm, rfl⟩
  · intro e he
    obtain ⟨ha, hb, m, hm, hme⟩ := h3 e he
    refine ⟨?_, ?_, m, ?_, ?_⟩
    · rw [ha]; exact mean_perm ((ofTransmitter_perm hperm e.id).map _)
    · rw [hb]; exact mean_perm ((ofTransmitter_perm hperm e.id).map _)
    · exact hperm.mem_iff.mp (List.mem_filter.mp hm).1
    · have := (List.mem_filter.mp hm).2
      refine ⟨by simpa using this, ?_, ?_, ?_⟩ <;> rw [hme]

/-- Two measurements of "a" and one of "b" in a window of one second, oldest taken at time 1000. -/
def sampleBuffer : BufferState :=
  ⟨1000, 2000, 0, [⟨⟨.BEACON, "b", -80, 0, 0, 0⟩, 1000⟩, ⟨⟨.BEACON, "a", -60, 0, 0, 0⟩, 1500⟩, ⟨⟨.BEACON, "a", -70, 0, 0, 0⟩, 2000⟩]⟩

example : (⟨0, 1000, 3000, 0, false⟩ : BufferCfg).shiftMs ≤ sampleBuffer.currentTs - sampleBuffer.lastExtractionTs ∧
    mean ((ofTransmitter "a" sampleBuffer.measurements).map (·.data.rssi)) = -65 := by
  constructor
  · decide
  · simp [ofTransmitter, sampleBuffer, mean]; norm_num

/-! ## C18 -/

/-- **C18.** A closed gate returns nothing and changes nothing but the remembered step time. -/
theorem C18_closed_gate (s : Sorts) (cfg : BufferCfg) (b : BufferState) (t : Int)
    (h : b.currentTs - b.lastExtractionTs < cfg.shiftMs) :
    (extractMeasurements s cfg b t).1 = [] ∧ (extractMeasurements s cfg b t).2.measurements = b.measurements ∧
    (extractMeasurements s cfg b t).2.lastExtractionTs = b.lastExtractionTs := by
  rw [extract_fail s cfg b t h]; exact ⟨rfl, rfl, rfl⟩

/-- **C18.** In any sequence of calls with non-zero time stamps, an extraction returns data only if
the newest measurement is at least the window shift younger than the first one ever added. -/
theorem C18_first_extraction (s : Sorts) (cfg : BufferCfg) (hshift : 0 ≤ cfg.shiftMs) (ops : List BufOp)
    (hts : ∀ m ∈ added ops, m.ts ≠ 0) (t : Int)
    (hdata : (extractMeasurements s cfg (runBuf s cfg ops) t).1 ≠ [])
    (first last : RadioMeasurement) (hfirst : (added ops).head? = some first) (hlast : (added ops).getLast? = some last) :
    cfg.shiftMs ≤ last.ts - first.ts := by
  have hcur : (runBuf s cfg ops).currentTs = last.ts := by rw [runBuf_currentTs, hlast]; rfl
  have hgate : cfg.shiftMs ≤ (runBuf s cfg ops).currentTs - (runBuf s cfg ops).lastExtractionTs := by
    by_contra hno
    exact hdata (C18_closed_gate s cfg _ t (by omega)).1
  have hle : first.ts ≤ (runBuf s cfg ops).lastExtractionTs := by
    -- split the history at the first addition
    have key : ∀ (ops : List BufOp) (b : BufferState), b.currentTs = 0 → (added ops).head? = some first →
        (∀ m ∈ added ops, m.ts ≠ 0) → first.ts ≤ (ops.foldl (stepBuf s cfg) b).lastExtractionTs := by
      intro ops
      induction ops with
      | nil => intro b _ h; simp [added] at h
      | cons op ops ih =>
        intro b hb hf hts
        rw [List.foldl_cons]
        cases op with
        | add m =>
          simp only [added, List.head?_cons, Option.some.injEq] at hf
          subst hf
          have hm : m.ts ≠ 0 := hts m (by simp [added])
          refine le_trans ?_ (runBuf_lastExtraction_mono s cfg hshift ops _ ?_ (fun x hx => hts x (by simp [added, hx])))
          · simp [stepBuf, addMeasurement, hb]
          · simp [stepBuf, addMeasurement, hm]
        | extract t =>
          refine ih _ ?_ (by simpa [added] using hf) (fun x hx => hts x (by simpa [added] using hx))
          by_cases h : b.currentTs - b.lastExtractionTs < cfg.shiftMs
          · simp only [stepBuf]; rw [extract_fail s cfg b t h]; exact hb
          · simp only [stepBuf]; rw [extract_pass s cfg b t h]; exact hb
    exact key ops .init rfl hfirst hts
  omega

/-- **C18.** Two data-bearing extractions of the same history are at least the window shift apart
(measured by the newest measurement at each), and with a positive shift a measurement was added
between them: the same window is never reported twice. -/
theorem C18_spacing (s : Sorts) (cfg : BufferCfg) (hshift : 0 ≤ cfg.shiftMs) (pre mid : List BufOp)
    (t₁ t₂ : Int) (hts : ∀ m ∈ added (pre ++ mid), m.ts ≠ 0)
    (h₁ : (extractMeasurements s cfg (runBuf s cfg pre) t₁).1 ≠ [])
    (h₂ : (extractMeasurements s cfg (runBuf s cfg (pre ++ [.extract t₁] ++ mid)) t₂).1 ≠ [])
    (m₁ m₂ : RadioMeasurement) (hm₁ : (added pre).getLast? = some m₁) (hm₂ : (added (pre ++ mid)).getLast? = some m₂) :
    cfg.shiftMs ≤ m₂.ts - m₁.ts ∧ (0 < cfg.shiftMs → added mid ≠ []) := by
  have hopen : ¬ (runBuf s cfg pre).currentTs - (runBuf s cfg pre).lastExtractionTs < cfg.shiftMs := by
    intro h; exact h₁ (C18_closed_gate s cfg _ t₁ h).1
  have hopen2 : ¬ (runBuf s cfg (pre ++ [.extract t₁] ++ mid)).currentTs -
      (runBuf s cfg (pre ++ [.extract t₁] ++ mid)).lastExtractionTs < cfg.shiftMs := by
    intro h; exact h₂ (C18_closed_gate s cfg _ t₂ h).1
  have hc1 : (runBuf s cfg pre).currentTs = m₁.ts := by rw [runBuf_currentTs, hm₁]; rfl
  have hadd : added (pre ++ [.extract t₁] ++ mid) = added (pre ++ mid) := by
    simp [added_append, added]
  have hc2 : (runBuf s cfg (pre ++ [.extract t₁] ++ mid)).currentTs = m₂.ts := by
    rw [runBuf_currentTs, hadd, hm₂]; rfl
  have hm1ne : m₁.ts ≠ 0 := by
    refine hts m₁ ?_
    rw [added_append]
    exact List.mem_append_left _ (List.mem_of_getLast? hm₁)
  have hmono : m₁.ts ≤ (runBuf s cfg (pre ++ [.extract t₁] ++ mid)).lastExtractionTs := by
    rw [runBuf_append]
    refine le_trans ?_ (runBuf_lastExtraction_mono s cfg hshift mid _ ?_ ?_)
    · rw [runBuf_snoc]; simp only [stepBuf]; rw [extract_pass s cfg _ t₁ hopen]; exact hc1.ge
    · rw [runBuf_snoc]; simp only [stepBuf]; rw [extract_pass s cfg _ t₁ hopen]; rw [hc1]; exact hm1ne
    · intro m hm; exact hts m (by rw [added_append]; exact List.mem_append_right _ hm)
  refine ⟨by omega, fun hpos hnil => ?_⟩
  have : added (pre ++ mid) = added pre := by rw [added_append, hnil, List.append_nil]
  rw [this, hm₁] at hm₂
  cases hm₂
  omega

/-- The hypotheses are met: two data-bearing extractions one second apart. -/
example : ∃ (s : Sorts) (cfg : BufferCfg) (pre mid : List BufOp) (t₁ t₂ : Int), 0 < cfg.shiftMs ∧
    (∀ m ∈ added (pre ++ mid), m.ts ≠ 0) ∧
    (extractMeasurements s cfg (runBuf s cfg pre) t₁).1 ≠ [] ∧
    (extractMeasurements s cfg (runBuf s cfg (pre ++ [.extract t₁] ++ mid)) t₂).1 ≠ [] := by
  refine ⟨⟨id, id, id⟩, ⟨0, 1000, 0, 0, false⟩,
    [.add ⟨⟨.BEACON, "a", -60, 0, 0, 0⟩, 1000⟩, .add ⟨⟨.BEACON, "a", -70, 0, 0, 0⟩, 2000⟩],
    [.add ⟨⟨.BEACON, "a", -60, 0, 0, 0⟩, 3000⟩], 0, 0, by decide, ?_, ?_, ?_⟩
  · simp [added]
  · simp [runBuf, stepBuf, addMeasurement, extractMeasurements, BufferState.init, averageLoop]
  · simp [runBuf, stepBuf, addMeasurement, extractMeasurements, BufferState.init, averageLoop]

/-! ## C19 -/

/-- The user stands still as far as the buffer knows: stop detection is on, a step was seen, and the
newest measurement is more than the stop detection time after it. -/
def StandingStill (cfg : BufferCfg) (b : BufferState) (t : Int) : Prop :=
  cfg.useStops = true ∧ ∃ step, step > 0 ∧ (step = t ∨ (t ≤ 0 ∧ step = b.lastStepTs)) ∧ b.currentTs - step > cfg.stopMs

/-- **C19.** After an extraction with open gate: if the user stands still nothing is erased;
otherwise exactly the measurements not older than the keep period survive, none if it is zero. -/
theorem C19_retention (s : Sorts) (hs : s.Lawful) (cfg : BufferCfg) (b : BufferState) (t : Int)
    (hgate : cfg.shiftMs ≤ b.currentTs - b.lastExtractionTs) :
    let after := (extractMeasurements s cfg b t).2.measurements
    (StandingStill cfg b t → after.Perm b.measurements) ∧
    (¬ StandingStill cfg b t → cfg.keepMs = 0 → after = []) ∧
    (¬ StandingStill cfg b t → cfg.keepMs ≠ 0 →
      after.Perm (b.measurements.filter (fun m => b.currentTs - cfg.keepMs ≤ m.ts))) := by
  rw [extract_pass s cfg b t (by omega)]
  simp only
  have hst : StandingStill cfg b t ↔
      (cfg.useStops = true ∧ stepTs b t > 0 ∧ b.currentTs - stepTs b t > cfg.stopMs) := by
    unfold StandingStill stepTs
    by_cases ht : t > 0
    · simp only [ht, if_true]
      constructor
      · rintro ⟨h1, step, h2, h3 | h3, h4⟩
        · subst h3; exact ⟨h1, by trivial, h4⟩
        · omega
      · rintro ⟨h1, -, h3⟩; exact ⟨h1, t, ht, .inl rfl, h3⟩
    · simp only [ht, if_false]
      constructor
      · rintro ⟨h1, step, h2, h3 | h3, h4⟩
        · omega
        · obtain ⟨-, rfl⟩ := h3; exact ⟨h1, h2, h4⟩
      · rintro ⟨h1, h2, h3⟩; exact ⟨h1, b.lastStepTs, h2, .inr ⟨by omega, rfl⟩, h3⟩
  rw [hst]
  refine ⟨fun h => ?_, fun h hk => ?_, fun h hk => ?_⟩
  · rw [if_pos h]; exact hs.byId.perm _
  · rw [if_neg h, if_pos hk]
  · rw [if_neg h, if_neg hk]
    have hp : ∀ a c : RadioMeasurement, ¬ c.ts < a.ts →
        (!decide (c.ts ≥ b.currentTs - cfg.keepMs)) = true → (!decide (a.ts ≥ b.currentTs - cfg.keepMs)) = true := by
      intro a c hac hc
      simp only [Bool.not_eq_true', decide_eq_false_iff_not, not_lt] at *
      omega
    rw [dropWhile_eq_filter hp _ (hs.byTs.sorted _)]
    have := (hs.byTs.perm (s.byId b.measurements)).trans (hs.byId.perm b.measurements)
    simpa using this.filter (fun m => decide (b.currentTs - cfg.keepMs ≤ m.ts))

/-- **C19.** Nothing is invented or duplicated: after any sequence of calls the window is, up to
order, a selection of the added measurements (with the configured bias added to the rssi). -/
theorem C19_nothing_invented (s : Sorts) (hs : s.Lawful) (cfg : BufferCfg) (ops : List BufOp) :
    (runBuf s cfg ops).measurements.Subperm
      ((added ops).map (fun m => { m with data := { m.data with rssi := m.data.rssi + cfg.bias } })) := by
  induction ops using List.reverseRecOn with
  | nil => exact List.Subperm.refl _
  | append_singleton ops op ih =>
    rw [runBuf_snoc, added_append, List.map_append]
    cases op with
    | add m =>
      have : (stepBuf s cfg (runBuf s cfg ops) (.add m)).measurements = (runBuf s cfg ops).measurements ++
          [{ m with data := { m.data with rssi := m.data.rssi + cfg.bias } }] := by
        simp only [stepBuf, addMeasurement]; split_ifs <;> rfl
      rw [this]
      exact ih.append (List.Subperm.refl _)
    | extract t =>
      simp only [added, List.map_nil, List.append_nil]
      refine List.Subperm.trans ?_ ih
      simp only [stepBuf]
      by_cases h : (runBuf s cfg ops).currentTs - (runBuf s cfg ops).lastExtractionTs < cfg.shiftMs
      · rw [extract_fail s cfg _ t h]
      · obtain ⟨ha, hb, hc⟩ := C19_retention s hs cfg (runBuf s cfg ops) t (by omega)
        by_cases hst : StandingStill cfg (runBuf s cfg ops) t
        · exact (ha hst).subperm
        · by_cases hk : cfg.keepMs = 0
          · rw [hb hst hk]; exact List.nil_subperm
          · exact (hc hst hk).subperm.trans List.filter_sublist.subperm

example : StandingStill ⟨500, 1000, 300, 0, true⟩ sampleBuffer 1600 ∧
    ¬ StandingStill ⟨500, 1000, 3000, 0, true⟩ sampleBuffer 1600 ∧
    sampleBuffer.measurements.filter (fun m => sampleBuffer.currentTs - 500 ≤ m.ts) ≠ [] := by
  refine ⟨⟨rfl, 1600, by decide, .inl rfl, by decide⟩, ?_, ?_⟩
  · rintro ⟨-, step, h1, h2 | h2, h3⟩
    · subst h2; simp [sampleBuffer] at h3
    · omega
  · simp [sampleBuffer]

/-! ## C23 -/

/-- **C23.** The configured window: keep period plus shift is the averaging time (in whole
milliseconds), the shift is the averaging time when it was configured as zero or larger, and the
keep period is never negative. No bias is applied. -/
theorem C23_window (cs : CommonSettings) :
    let cfg := createRadioMeasurementBuffer cs
    let avg := truncToInt (1000 * cs.sigAveragingTime)
    let raw := truncToInt (1000 * cs.sigWindowShift)
    cfg.keepMs + cfg.shiftMs = avg ∧
    (raw = 0 ∨ avg < raw → cfg.shiftMs = avg ∧ cfg.keepMs = 0) ∧
    (raw ≠ 0 → raw ≤ avg → cfg.shiftMs = raw) ∧
    0 ≤ cfg.keepMs ∧ cfg.bias = 0 ∧ cfg.useStops = cs.useStops ∧
    (0 ≤ cs.sigAveragingTime → 0 ≤ cs.sigWindowShift → 0 ≤ cfg.shiftMs) := by
  simp only [createRadioMeasurementBuffer]
  have h0 : ∀ x : ℝ, 0 ≤ x → 0 ≤ truncToInt (1000 * x) := by
    intro x hx
    have : (0 : ℝ) ≤ 1000 * x := by linarith
    simp only [truncToInt, this, if_true]
    exact Int.floor_nonneg.mpr this
  refine ⟨?_, ?_, ?_, ?_, trivial, trivial, ?_⟩
  · split_ifs <;> omega
  · intro h; rw [if_pos (by omega)]; omega
  · intro h1 h2; rw [if_neg (by omega)]
  · split_ifs <;> omega
  · intro ha hb
    have := h0 _ ha
    have := h0 _ hb
    split_ifs <;> omega

/-- **C23.** The milliseconds are within one millisecond of the configured seconds, towards zero. -/
theorem C23_milliseconds (x : ℝ) :
    (0 ≤ x → (truncToInt x : ℝ) ≤ x ∧ x < truncToInt x + 1) ∧
    (x < 0 → x ≤ (truncToInt x : ℝ) ∧ (truncToInt x : ℝ) < x + 1) := by
  constructor
  · intro h
    simp only [truncToInt, h, if_true]
    exact ⟨Int.floor_le x, Int.lt_floor_add_one x⟩
  · intro h
    simp only [truncToInt, not_le.mpr h, if_false]
    exact ⟨Int.le_ceil x, Int.ceil_lt_add_one x⟩

/-- The default settings average over one second and keep nothing. -/
example : truncToInt (1000 * ({} : CommonSettings).sigAveragingTime) = 1000 ∧
    truncToInt (1000 * ({} : CommonSettings).sigWindowShift) = 0 := by
  constructor
  · simp [truncToInt]
  · simp [truncToInt]

/-! ## C20 -/

/-- **C20.** In RSSI mode, whatever the history of messages and extractions, every rssi that leaves
the preprocessor lies strictly between the cutoff and zero, and between two values of the same
transmitter that are in the window. -/
theorem C20_range (s : Sorts) (hs : s.Lawful) (c : LevelCollector) (cs : CommonSettings)
    (hmode : cs.measurementType = .RSSI) (g : Int × SensorMeasurement × NmeaMeasurement) (ops : List Op) (t : Int)
    (out : List RadioData)
    (hout : (extractRadioMeasurements s (mkCfg c cs) (runPre s (mkCfg c cs) g ops) t).1 = some out) :
    ∀ e ∈ out, cs.sigCutOffRss < e.rssi ∧ e.rssi < 0 ∧
      ∃ lo ∈ (runPre s (mkCfg c cs) g ops).buffer.measurements, ∃ hi ∈ (runPre s (mkCfg c cs) g ops).buffer.measurements,
        lo.data.id = e.id ∧ hi.data.id = e.id ∧ lo.data.rssi ≤ e.rssi ∧ e.rssi ≤ hi.data.rssi := by
  -- invariant: every buffered rssi is in range
  have hinv : ∀ m ∈ (runPre s (mkCfg c cs) g ops).buffer.measurements, cs.sigCutOffRss < m.data.rssi ∧ m.data.rssi < 0 := by
    clear hout
    induction ops using List.reverseRecOn with
    | nil => intro m hm; simp [runPre, State.init, BufferState.init] at hm
    | append_singleton ops op ih =>
      rw [show runPre s (mkCfg c cs) g (ops ++ [op]) = stepPre s (mkCfg c cs) (runPre s (mkCfg c cs) g ops) op by
        simp [runPre]]
      cases op with
      | update msg =>
        obtain ⟨d, ts⟩ := msg
        cases d with
        | radio e =>
          simp only [stepPre, updateMeasurements]
          cases hv : getValidSignalEntry (mkCfg c cs) e with
          | none => exact ih
          | some v =>
            have hve : v = e ∧ cs.sigCutOffRss < e.rssi ∧ e.rssi < 0 := by
              obtain ⟨h1, -, h3, -⟩ := (getValid_some _ _ _).mp hv
              exact ⟨h1, (isRssiValid_iff _ _).mp (h3 hmode)⟩
            obtain ⟨rfl, hr1, hr2⟩ := hve
            intro m hm
            have hm' : m ∈ (runPre s (mkCfg c cs) g ops).buffer.measurements ++
                [⟨{ v with rssi := v.rssi + 0 }, ts⟩] := by
              simp only [addMeasurement] at hm
              split_ifs at hm <;> exact hm
            rcases List.mem_append.mp hm' with hm' | hm'
            · exact ih m hm'
            · rw [List.mem_singleton] at hm'
              subst hm'
              simpa using ⟨hr1, hr2⟩
        | sensor e => exact ih
        | nmea e => exact ih
      | extract t =>
        simp only [stepPre, extractRadioMeasurements]
        intro m hm
        refine ih m ?_
        set b := (runPre s (mkCfg c cs) g ops).buffer
        by_cases h : b.currentTs - b.lastExtractionTs < (mkCfg c cs).buffer.shiftMs
        · rw [extract_fail s _ _ t h] at hm; exact hm
        · obtain ⟨ha, hb, hc⟩ := C19_retention s hs (mkCfg c cs).buffer b t (by omega)
          by_cases hst : StandingStill (mkCfg c cs).buffer b t
          · exact (ha hst).mem_iff.mp hm
          · by_cases hk : (mkCfg c cs).buffer.keepMs = 0
            · rw [hb hst hk] at hm; cases hm
            · exact List.mem_of_mem_filter ((hc hst hk).mem_iff.mp hm)
  -- the entry comes from an averaged entry with the same id and rssi
  intro e he
  set b := (runPre s (mkCfg c cs) g ops).buffer with hb
  obtain ⟨a, ha, hae⟩ : ∃ a ∈ (extractMeasurements s (mkCfg c cs).buffer b t).1, a.id = e.id ∧ a.rssi = e.rssi := by
    simp only [extractRadioMeasurements] at hout
    rw [mapM_forall₂, ← hb] at hout
    obtain ⟨a, ha, hw⟩ : ∃ a ∈ closestAps s (mkCfg c cs) (extractMeasurements s (mkCfg c cs).buffer b t).1,
        withDistance (mkCfg c cs) a = some e := by
      obtain ⟨i, hi1, hi2⟩ := List.mem_iff_getElem.mp he
      have hl := hout.length_eq
      exact ⟨_, List.getElem_mem (n := i) (by omega), by rw [← hi2]; exact (List.forall₂_iff_get.mp hout).2 i (by omega) hi1⟩
    refine ⟨a, closestAps_mem s hs _ _ a ha, ?_⟩
    rw [withDistance_fields _ _ _ hw]
    exact ⟨rfl, rfl⟩
  by_cases hgate : b.currentTs - b.lastExtractionTs < (mkCfg c cs).buffer.shiftMs
  · rw [extract_fail s _ _ t hgate] at ha; cases ha
  · obtain ⟨-, hid, hav⟩ := C17_average s hs (mkCfg c cs).buffer b t (by omega)
    obtain ⟨hmean, -⟩ := hav a ha
    obtain ⟨m, hm, hme⟩ := (hid a.id).mp (List.mem_map_of_mem ha)
    have hne : (ofTransmitter a.id b.measurements).map (·.data.rssi) ≠ [] := by
      intro h0
      have : m ∈ ofTransmitter a.id b.measurements := List.mem_filter.mpr ⟨hm, by simpa using hme⟩
      rw [List.map_eq_nil_iff.mp h0] at this
      cases this
    obtain ⟨lo, hlo, hi, hhi, h1, h2⟩ := mean_bounds hne
    rw [← hmean, hae.2] at h1 h2
    obtain ⟨mlo, hmlo, rfl⟩ := List.mem_map.mp hlo
    obtain ⟨mhi, hmhi, rfl⟩ := List.mem_map.mp hhi
    have hlo' := List.mem_filter.mp hmlo
    have hhi' := List.mem_filter.mp hmhi
    have h3 := hinv mlo hlo'.1
    have h4 := hinv mhi hhi'.1
    refine ⟨lt_of_lt_of_le h3.1 h1, lt_of_le_of_lt h2 h4.2, mlo, hlo'.1, mhi, hhi'.1, ?_, ?_, h1, h2⟩
    · rw [← hae.1]; simpa using hlo'.2
    · rw [← hae.1]; simpa using hhi'.2

/-- Settings that accept every transmitter and keep the two strongest. -/
noncomputable def sampleSettings : CommonSettings :=
  { useUnknownTransmitters := true, useClosestAps := true, numClosestAps := 2 }

theorem sampleSettings_buffer : createRadioMeasurementBuffer sampleSettings = ⟨0, 1000, 3000, 0, false⟩ := by
  norm_num [createRadioMeasurementBuffer, sampleSettings, truncToInt]

/-- Non-vacuity of C20 and C21: after hearing one beacon at times 1000 and 2000 an extraction
returns one entry. -/
example : ∃ out, (extractRadioMeasurements insertionSorts (mkCfg emptyCollector sampleSettings)
      (runPre insertionSorts (mkCfg emptyCollector sampleSettings)
        (7, ⟨⟨.BAROMETER, ⟨0, 0, 0⟩⟩, 0⟩, ⟨⟨0, 0⟩, 0⟩)
        [.update ⟨.radio ⟨.BEACON, "a", -60, 0, 0, 0⟩, 1000⟩, .extract 0,
         .update ⟨.radio ⟨.BEACON, "a", -70, 0, 0, 0⟩, 2000⟩]) 0).1 = some out ∧
    out.map RadioData.rssi = [-65] := by
  have hv : ∀ r : ℝ, -100 < r → r < 0 → getValidSignalEntry (mkCfg emptyCollector sampleSettings)
      ⟨.BEACON, "a", r, 0, 0, 0⟩ = some ⟨.BEACON, "a", r, 0, 0, 0⟩ := by
    intro r h1 h2
    rw [getValid_some, isSignalTypeSupported_iff, isRssiValid_iff]
    refine ⟨rfl, by simp [TypeEnabled, sampleSettings], fun _ => ⟨h1, h2⟩, fun h => absurd rfl h, .inl rfl⟩
  refine ⟨[⟨.BEACON, "a", -65, 0, 0, 0⟩], ?_, rfl⟩
  have h1 := hv (-60) (by norm_num) (by norm_num)
  have h2 := hv (-70) (by norm_num) (by norm_num)
  have hb : (mkCfg emptyCollector sampleSettings).buffer = ⟨0, 1000, 3000, 0, false⟩ := sampleSettings_buffer
  have hc : (mkCfg emptyCollector sampleSettings).useClosestAps = true := rfl
  have hn : (mkCfg emptyCollector sampleSettings).numClosestAps = 2 := rfl
  have hl : (mkCfg emptyCollector sampleSettings).levelIndex = emptyCollector := rfl
  have hloop : ∀ (id : String), averageLoop [⟨⟨.BEACON, id, -60, 0, 0, 0⟩, 1000⟩, ⟨⟨.BEACON, id, -70, 0, 0, 0⟩, 2000⟩] =
      [⟨.BEACON, id, -65, 0, 0, 0⟩] := by
    intro id
    rw [averageLoop]
    simp only [List.takeWhile, List.dropWhile, lt_irrefl, decide_false, Bool.not_false]
    norm_num [averageRange, averageLoop, divide_pos]
  have hf : findLevelByTransmitterId emptyCollector "a" = none := rfl
  simp only [runPre, List.foldl_cons, List.foldl_nil, stepPre, updateMeasurements, h1, h2, hb, State.init,
    BufferState.init, addMeasurement, extractRadioMeasurements, extractMeasurements, insertionSorts]
  simp [closestAps, hc, hn, withDistance, hl, hf, hloop]

/-! ## C21 -/

/-- **C21.** With the closest-access-points option the result has `min N` entries of the averaged
window, in non-increasing rssi order, each equal to a window entry up to the distance, and no
dropped entry is stronger than a kept one; without the option all entries are returned. -/
theorem C21_closest (s : Sorts) (hs : s.Lawful) (cfg : Cfg) (st : State) (t : Int) (out : List RadioData)
    (hout : (extractRadioMeasurements s cfg st t).1 = some out) :
    let w := (extractMeasurements s cfg.buffer st.buffer t).1
    (cfg.useClosestAps = true →
      out.length = min cfg.numClosestAps w.length ∧
      out.Pairwise (fun a b => b.rssi ≤ a.rssi) ∧
      ∃ kept dropped, (kept ++ dropped).Perm w ∧
        List.Forall₂ (fun k e => e = { k with distance := e.distance }) kept out ∧
        ∀ k ∈ kept, ∀ d ∈ dropped, d.rssi ≤ k.rssi) ∧
    (cfg.useClosestAps = false → List.Forall₂ (fun k e => e = { k with distance := e.distance }) w out) := by
  simp only [extractRadioMeasurements] at hout
  rw [mapM_forall₂] at hout
  have hfields := hout.imp (fun a e h => withDistance_fields cfg a e h)
  simp only
  set w := (extractMeasurements s cfg.buffer st.buffer t).1
  constructor
  · intro hc
    set sorted := (s.byRssi w.reverse).reverse with hsorted
    have hperm : sorted.Perm w :=
      (List.reverse_perm _).trans ((hs.byRssi.perm _).trans (List.reverse_perm _))
    have hcl : closestAps s cfg w = sorted.take cfg.numClosestAps := by
      simp only [closestAps, hc, if_true]
      split_ifs with h
      · rfl
      · rw [← hsorted] at h ⊢; rw [List.take_of_length_le (by omega)]
    have hord : sorted.Pairwise (fun a b => b.rssi ≤ a.rssi) := by
      rw [hsorted, List.pairwise_reverse]
      exact (hs.byRssi.sorted _).imp (fun h => not_lt.mp h)
    rw [hcl] at hfields
    have hrs : ∀ i (h1 : i < out.length) (h2 : i < (sorted.take cfg.numClosestAps).length),
        out[i].rssi = (sorted.take cfg.numClosestAps)[i].rssi := by
      intro i h1 h2
      have := (List.forall₂_iff_get.mp hfields).2 i h2 h1
      simp only [List.get_eq_getElem] at this
      rw [this]
    have hlen := hfields.length_eq
    refine ⟨?_, ?_, sorted.take cfg.numClosestAps, sorted.drop cfg.numClosestAps, ?_, hfields, ?_⟩
    · rw [← hlen, List.length_take, hperm.length_eq]
    · rw [List.pairwise_iff_getElem]
      intro i j hi hj hij
      rw [hrs i hi (by omega), hrs j hj (by omega)]
      exact List.pairwise_iff_getElem.mp (hord.sublist (List.take_sublist _ _)) i j (by omega) (by omega) hij
    · rw [List.take_append_drop]; exact hperm
    · intro k hk d hd
      have hsplit := List.take_append_drop cfg.numClosestAps sorted
      rw [← hsplit, List.pairwise_append] at hord
      exact hord.2.2 k hk d hd
  · intro hc
    have : closestAps s cfg w = w := by simp [closestAps, hc]
    rwa [this] at hfields

/-! ## C22 -/

/-- **C22.** With unique level ids the distance step never throws; a non-RTT entry of a known
transmitter gets the strictly positive distance at which the path-loss model predicts exactly the
measured rssi (when that distance is not below the one centimetre floor of the model); entries of
unknown transmitters are unchanged; RTT distances are shifted by the offset. -/
theorem C22_distance (ls : List Level) (huniq : (ls.map Level.id).Nodup) (cs : CommonSettings) (m : RadioData) :
    ∃ e, withDistance (mkCfg (collect ls) cs) m = some e ∧ e = { m with distance := e.distance } ∧
      (m.type = .WIFI_RTT → e.distance = m.distance - cs.wiFiRttOffset) ∧
      (m.type ≠ .WIFI_RTT → (∀ t, ¬ Known ls m.id t) → e.distance = m.distance) ∧
      (m.type ≠ .WIFI_RTT → ∀ t, Known ls m.id t → t.pathloss.B ≠ 0 →
        0 < e.distance ∧ (1 / 100 ≤ e.distance → pathlossRssi t.pathloss e.distance = m.rssi)) := by
  by_cases hty : m.type = .WIFI_RTT
  · refine ⟨{ m with distance := m.distance - cs.wiFiRttOffset }, ?_, rfl, fun _ => rfl, fun h => absurd hty h,
      fun h => absurd hty h⟩
    simp [withDistance, hty, mkCfg]
  · rcases lookup_cases ls huniq m.id with ⟨hf, hno⟩ | ⟨l, t, hf, hl, hh, hc, ht, hk⟩
    · refine ⟨m, ?_, rfl, fun h => absurd h hty, fun _ _ => rfl, fun _ t hk => absurd hk (hno t)⟩
      simp [withDistance, hty, mkCfg, hf]
    · refine ⟨{ m with distance := Real.exp ((t.pathloss.A - m.rssi) ÷ t.pathloss.B) }, ?_, rfl,
        fun h => absurd h hty, fun _ hno => absurd hk (hno t), ?_⟩
      · simp [withDistance, hty, mkCfg, hf, hl, ht]
      · intro _ t' hk' hB
        obtain rfl := known_unique hk hk'
        refine ⟨Real.exp_pos _, fun hfloor => ?_⟩
        simp only at hfloor ⊢
        rw [pathlossRssi, max_eq_left hfloor, logarithm_eq (Real.exp_pos _), Real.log_exp, divide_eq hB]
        field_simp
        ring

/-- **C22.** For a positive slope a stronger signal of the same transmitter always means a strictly
smaller distance. -/
theorem C22_monotone (ls : List Level) (huniq : (ls.map Level.id).Nodup) (cs : CommonSettings) (m m' e e' : RadioData)
    (t : Transmitter XYZPoint) (hk : Known ls m.id t) (hB : 0 < t.pathloss.B) (hid : m'.id = m.id)
    (hty : m.type ≠ .WIFI_RTT) (hty' : m'.type ≠ .WIFI_RTT)
    (he : withDistance (mkCfg (collect ls) cs) m = some e) (he' : withDistance (mkCfg (collect ls) cs) m' = some e')
    (hlt : m.rssi < m'.rssi) : e'.distance < e.distance := by
  rcases lookup_cases ls huniq m.id with ⟨hf, hno⟩ | ⟨l, t', hf, hl, hh, hc, ht, hk'⟩
  · exact absurd hk (hno t)
  · obtain rfl := known_unique hk hk'
    have h1 : e = { m with distance := Real.exp ((t.pathloss.A - m.rssi) / t.pathloss.B) } := by
      simpa [withDistance, hty, mkCfg, hf, hl, ht, eq_comm, divide_pos hB] using he
    have h2 : e' = { m' with distance := Real.exp ((t.pathloss.A - m'.rssi) / t.pathloss.B) } := by
      simpa [withDistance, hty', mkCfg, hid, hf, hl, ht, eq_comm, divide_pos hB] using he'
    rw [h1, h2]
    simp only
    rw [Real.exp_lt_exp]
    exact div_lt_div_of_pos_right (by linarith) hB

/-- The sample beacon heard at −59 is at one metre, where the model is exact. -/
example : Known [bareLevel "A" [], bareLevel "B" [sampleTx]] "tx" sampleTx ∧ sampleTx.pathloss.B ≠ 0 ∧
    (1 / 100 : ℝ) ≤ Real.exp ((sampleTx.pathloss.A - (-59)) / sampleTx.pathloss.B) := by
  refine ⟨sample_known, by norm_num [sampleTx], ?_⟩
  norm_num [sampleTx]

end Verif.Radio
