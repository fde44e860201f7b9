import Verif.Footprint.Lemmas

/-!
# C121: how much a client keeps
-/

namespace Verif.Footprint

open Verif.Levels Verif.Nav
open Verif.Knn (Result)

/-! ## The parts -/

/-- If the front of a list of times is too old, at most the rest is recent. -/
theorem recent_of_cut {ts d r : List Int} {w : ℝ} (h : ts = d ++ r)
    (hd : ∀ t ∈ d, ¬ ∀ z, ts.getLast? = some z → ((z - t : Int) : ℝ) ≤ w) : recent ts w ≤ r.length := by
  unfold recent
  generalize ts.getLast? = z at hd ⊢
  subst h
  rw [List.filter_append, List.filter_eq_nil_iff.mpr (fun t ht => by simpa using hd t ht), List.nil_append]
  exact List.length_filter_le _ _

theorem heardTimes_snoc (ls : List Level) (cs : CommonSettings) (ms : List Measurement) (m : Measurement) :
    (Heard ls cs m → heardTimes ls cs (ms ++ [m]) = heardTimes ls cs ms ++ [m.ts]) ∧
    (¬ Heard ls cs m → heardTimes ls cs (ms ++ [m]) = heardTimes ls cs ms) := by
  classical
  unfold heardTimes
  constructor <;> intro h <;> simp [List.filter_append, h]

theorem heardTimes_mem {ls : List Level} {cs : CommonSettings} {ms : List Measurement} {t : Int} (h : t ∈ heardTimes ls cs ms) :
    ∃ m ∈ ms, m.ts = t := by
  unfold heardTimes at h
  obtain ⟨m, hm, he⟩ := List.mem_map.mp h
  exact ⟨m, (List.mem_filter.mp hm).1, he⟩

/-- The buffer with an admitted signal. -/
theorem heard_buffer {ls : List Level} {c : Cfg} (hc : Client ls c) (st : Radio.State) {m : Measurement} (h : Heard ls c.cs m) :
    ∃ r : RadioMeasurement, r.ts = m.ts ∧ (Radio.updateMeasurements c.pre st m).buffer = Radio.addMeasurement c.pre.buffer st.buffer r := by
  obtain ⟨d, hd, ha⟩ := h
  have hl := (update_heard hc st m).1 ⟨d, hd, ha⟩
  have h16 := (Radio.C16_admission ls hc.map.nodup c.cs st d m.ts).1 ha
  unfold Radio.updateMeasurements
  rw [hd]
  dsimp only
  cases hv : Radio.getValidSignalEntry c.pre d with
  | some v => exact ⟨⟨v, m.ts⟩, rfl, rfl⟩
  | none =>
    exfalso
    rw [hc.parts.pre] at hv
    have h2 := h16.1
    unfold Radio.updateMeasurements at h2
    dsimp only at h2
    rw [hv] at h2
    have := congrArg List.length h2
    simp at this

theorem floors_step {h : LevelEst.History} {ids : List String} (hs : StdMap.Sorted h.floorCnt)
    (hk : ∀ k ∈ h.floorCnt.map Prod.fst, k ∈ ids) {d : String} (hd : d = "" ∨ d ∈ ids) :
    StdMap.Sorted (LevelEst.detectLevelUsingHistory h d).2.floorCnt ∧
    ∀ k ∈ (LevelEst.detectLevelUsingHistory h d).2.floorCnt.map Prod.fst, k ∈ ids := by
  have key : ∀ (l : List (String × ℕ)) (v : ℕ), d ∈ ids → (∀ k ∈ l.map Prod.fst, k ∈ ids) → ∀ k ∈ (StdMap.set l d v).map Prod.fst, k ∈ ids := by
    intro l v hd hl k hk
    rw [← StdMap.find?_isSome_iff, StdMap.find?_set] at hk
    split_ifs at hk with he
    · rw [← he]; exact hd
    · exact hl k ((StdMap.find?_isSome_iff _ _).mp hk)
  unfold LevelEst.detectLevelUsingHistory
  by_cases h0 : d = ""
  · rw [if_pos h0]; exact ⟨hs, hk⟩
  · rw [if_neg h0]
    have hd := hd.resolve_left h0
    dsimp only
    have e : (if h.isInitialized = true then h else { h with isInitialized := true, current := d }).floorCnt = h.floorCnt := by
      split_ifs <;> rfl
    rw [e]
    split_ifs
    all_goals first
      | exact ⟨StdMap.set_sorted _ _ _ hs, key _ _ hd hk⟩
      | exact ⟨StdMap.set_sorted _ _ _ List.Pairwise.nil, key [] _ hd (fun k hk => by cases hk)⟩

theorem pressures_step {b : LevelEst.Barometer} (h1 : b.newM.length ≤ 101) (h2 : b.stored.length ≤ 101) (id : String) (m : SensorMeasurement) :
    (LevelEst.checkLevelChange b id m).2.newM.length ≤ 101 ∧ (LevelEst.checkLevelChange b id m).2.stored.length ≤ 101 := by
  have hl : ∀ b : LevelEst.Barometer, (LevelEst.updateLevel b id).newM = b.newM ∧ (LevelEst.updateLevel b id).stored = b.stored := by
    intro b
    unfold LevelEst.updateLevel
    dsimp only
    split_ifs <;> exact ⟨rfl, rfl⟩
  unfold LevelEst.checkLevelChange
  split_ifs
  · exact ⟨h1, h2⟩
  · dsimp only
    rw [(hl _).1, (hl _).2]
    unfold LevelEst.updateBuffers LevelEst.sizeOfChunk
    dsimp only
    split_ifs <;> (try simp only [List.length_append, List.length_drop, List.length_take, List.length_cons, List.length_nil] at *) <;>
      omega

theorem fixes_step {cs : CommonSettings} (hs : cs.useGpsSigmaFilter = false) {lc : LevelCollector} {st st' : Estim.OutdoorState}
    {out : Position} (hb : st.buf = []) (k : Estim.Call)
    (h : Estim.outdoorPosition cs lc st k.ts k.sensor k.nmea k.indoor = some (out, st')) : st'.buf = [] := by
  by_cases hf : Estim.IsFix k
  · obtain ⟨st1, -, h1, h2⟩ := Estim.outdoorPosition_fix cs lc st k hf
    have hb1 : st1.buf = [] := by rcases h1 with h1 | h1 <;> rw [h1]; exact hb
    rw [h2] at h
    rcases Estim.outdoorLevels_spec cs lc st1 k with ⟨-, hr⟩ | ⟨l, -, hcase⟩
    · rw [hr] at h
      simp only [Option.some.injEq, Prod.mk.injEq] at h
      rw [← h.2]; exact hb1
    · have hnf : ¬ (cs.useGpsSigmaFilter = true ∧ k.ts ≠ st1.last.ts) := fun h => by rw [hs] at h; cases h.1
      rcases hcase with ⟨hfil, -⟩ | ⟨valid, buf, hn, -, hyes, hno⟩
      · exact absurd hfil hnf
      · obtain ⟨-, rfl⟩ := hn hnf
        by_cases hv : valid = true ∧ Estim.SatellitesOk cs k
        · rw [hyes hv] at h
          simp only [Option.some.injEq, Prod.mk.injEq] at h
          rw [← h.2]; exact hb1
        · rw [hno hv] at h
          simp only [Option.some.injEq, Prod.mk.injEq] at h
          rw [← h.2]; exact hb1
  · obtain ⟨st1, -, h1, h2⟩ := Estim.outdoorPosition_nofix cs lc st k hf
    rw [h2] at h
    simp only [Option.some.injEq, Prod.mk.injEq] at h
    rw [← h.2]
    rcases h1 with h1 | h1 <;> rw [h1]; exact hb

/-! ## The client -/

/-- What is known about the containers of a client after any history. -/
structure Sized (ls : List Level) (c : Cfg) (s : State) : Prop where
  inv : Inv ls c s
  sorted : StdMap.Sorted s.level.history.floorCnt
  keys : ∀ k ∈ s.level.history.floorCnt.map Prod.fst, k ∈ ls.map Level.id
  new : s.level.barometer.newM.length ≤ 101
  stored : s.level.barometer.stored.length ≤ 101
  fixes : c.cs.useGpsSigmaFilter = false → s.outdoor.buf = []

theorem sized_init {ls : List Level} {c : Cfg} (hc : Client ls c) (g : Garbage) : Sized ls c (init c g) where
  inv := inv_init hc g
  sorted := List.Pairwise.nil
  keys := by intro k hk; cases hk
  new := Nat.zero_le _
  stored := Nat.zero_le _
  fixes := fun _ => rfl

theorem sized_step {ls : List Level} {c : Cfg} (hc : Client ls c) {s s' : State} (h : Sized ls c s) {m : Measurement}
    {r : Output × DebugState} (hs : step c s m = .ok (s', r)) :
    Sized ls c s' ∧ ∃ x l, Stepped ls c s m s' r.1 x l ∧ r.2 = debugState x s' := by
  obtain ⟨x, l, hst, hdbg⟩ := step_parts hc h.inv hs
  refine ⟨?_, x, l, hst, hdbg⟩
  obtain ⟨-, -, -, -, -, -, -, ⟨d, hd, hcl⟩, h7⟩ := sense_parts hst.sense
  obtain ⟨-, -, f3, f4⟩ := locate_frame hst.locate
  have hd' : d = "" ∨ d ∈ ls.map Level.id := by
    obtain ⟨d', e1, e2⟩ := detect_ok hc x.radio
    rw [hd, Option.some.injEq] at e1
    subst e1
    rcases e2 with e2 | ⟨⟨lv, hlv, e2⟩, -⟩
    · exact .inl e2
    · exact .inr (List.mem_map.mpr ⟨lv, hlv, e2⟩)
  have hlev : x.level.history = (LevelEst.detectLevelUsingHistory s.level.history d).2 ∧
      (x.level.barometer = s.level.barometer ∨ ∃ id m', x.level.barometer = (LevelEst.checkLevelChange s.level.barometer id m').2) := by
    unfold LevelEst.calculateLevel at hcl
    dsimp only at hcl
    cases hb : c.cs.useBarometer with
    | true =>
      rw [hb, if_pos rfl, Prod.mk.injEq] at hcl
      rw [← hcl.2]
      exact ⟨rfl, .inr ⟨_, _, rfl⟩⟩
    | false =>
      rw [hb, if_neg (by simp), Prod.mk.injEq] at hcl
      rw [← hcl.2]
      exact ⟨rfl, .inl rfl⟩
  have hfl := floors_step h.sorted h.keys hd'
  rw [← hlev.1] at hfl
  have hbaro : x.level.barometer.newM.length ≤ 101 ∧ x.level.barometer.stored.length ≤ 101 := by
    rcases hlev.2 with e | ⟨id, m', e⟩
    · rw [e]; exact ⟨h.new, h.stored⟩
    · rw [e]; exact pressures_step h.new h.stored id m'
  have eo : s'.outdoor = x.outdoor := by rw [hst.state]; exact f4
  have el : s'.level = x.level := by rw [hst.state]; exact f3
  refine ⟨hst.state ▸ hst.inv, ?_, ?_, ?_, ?_, ?_⟩
  · rw [el]; exact hfl.1
  · rw [el]; exact hfl.2
  · rw [el]; exact hbaro.1
  · rw [el]; exact hbaro.2
  · intro hsig
    rw [eo]
    exact fixes_step hsig (h.fixes hsig) ⟨m.ts, (Radio.updateMeasurements c.pre s.pre m).sensor,
      (Radio.updateMeasurements c.pre s.pre m).nmea, s.flagIndoorPos⟩ h7

theorem sized_runs {ls : List Level} {c : Cfg} (hc : Client ls c) (g : Garbage) (ms : List Measurement) {s : State}
    {outs : List (Output × DebugState)} (h : runs c (init c g) ms = .ok (s, outs)) : Sized ls c s := by
  induction ms using List.reverseRecOn generalizing s outs with
  | nil => cases h; exact sized_init hc g
  | append_singleton ms m ih =>
    obtain ⟨s1, outs1, r, h1, h2, -⟩ := runs_snoc h
    exact (sized_step hc (ih h1) h2).1

theorem held_runs {ls : List Level} {c : Cfg} (hc : Client ls c) (hst : c.cs.useStops = false) (ha : 0 ≤ c.cs.sigAveragingTime)
    (hsh : 0 ≤ c.cs.sigWindowShift) (g : Garbage) (ms : List Measurement) (hpos : ∀ m ∈ ms, 0 < m.ts) (hord : Ordered ms) {s : State}
    {outs : List (Output × DebugState)} (h : runs c (init c g) ms = .ok (s, outs)) :
    Held c.pre.buffer (heardTimes ls c.cs ms) s.pre.buffer ∧ Gated c.pre.buffer s.pre.buffer := by
  have hcfg : c.pre.buffer = Radio.createRadioMeasurementBuffer c.cs := by rw [hc.parts.pre]; rfl
  have hk : 0 ≤ c.pre.buffer.keepMs := by rw [hcfg]; exact (window_le c.cs ha hsh).1
  have hus : c.pre.buffer.useStops = false := by rw [hcfg]; exact hst
  induction ms using List.reverseRecOn generalizing s outs with
  | nil => cases h; exact held_init _
  | append_singleton ms m ih =>
    obtain ⟨s1, outs1, r, h1, h2, -⟩ := runs_snoc h
    obtain ⟨i1, -⟩ := ih (fun e he => hpos e (by simp [he])) (List.pairwise_append.mp hord).1 h1
    obtain ⟨-, x, l, hst', -⟩ := sized_step hc (sized_runs hc g ms h1) h2
    obtain ⟨-, -, e3, -⟩ := sense_parts hst'.sense
    obtain ⟨f1, -⟩ := locate_frame hst'.locate
    have hb : s.pre.buffer = (Radio.extractMeasurements c.env.radioSorts c.pre.buffer
        (Radio.updateMeasurements c.pre s1.pre m).buffer x.info.lastMotionTs).2 := by
      rw [hst'.state, f1, e3]; rfl
    have hH : Held c.pre.buffer (heardTimes ls c.cs (ms ++ [m])) (Radio.updateMeasurements c.pre s1.pre m).buffer := by
      by_cases hh : Heard ls c.cs m
      · obtain ⟨rm, hr1, hr2⟩ := heard_buffer hc s1.pre hh
        rw [(heardTimes_snoc ls c.cs ms m).1 hh, hr2, ← hr1]
        refine held_add hk i1 ?_ ?_
        · intro t ht
          obtain ⟨e, he, rfl⟩ := heardTimes_mem ht
          exact hpos e (by simp [he])
        · intro t ht
          obtain ⟨e, he, rfl⟩ := heardTimes_mem ht
          rw [hr1]
          exact (List.pairwise_append.mp hord).2.2 e he m (by simp)
      · rw [(heardTimes_snoc ls c.cs ms m).2 hh, ((update_heard hc s1.pre m).2 hh).2]
        exact i1
    rw [hb]
    exact held_extract hc.radioSorts hus hH _

/-- **C121.** Without the detection of stops, the signals kept are at most as many as the admitted radio messages that are not older
than the averaging time when the last one came. -/
theorem C121_signals {ls : List Level} {c : Cfg} (hc : Client ls c) (hst : c.cs.useStops = false) (ha : 0 ≤ c.cs.sigAveragingTime)
    (hsh : 0 ≤ c.cs.sigWindowShift) (g : Garbage) (batches : List (List Measurement)) (hpos : ∀ m ∈ taken batches, 0 < m.ts)
    (hord : Ordered (taken batches)) {s : State} {outs : List (Output × DebugState)}
    (h : navigateAll c (init c g) batches = .ok (s, outs)) :
    signals s ≤ recent (heardTimes ls c.cs (taken batches)) (1000 * c.cs.sigAveragingTime) := by
  rw [navigateAll_eq] at h
  obtain ⟨h1, h2⟩ := held_runs hc hst ha hsh g _ hpos hord h
  have hcfg : c.pre.buffer = Radio.createRadioMeasurementBuffer c.cs := by rw [hc.parts.pre]; rfl
  obtain ⟨w1, w2, w3⟩ := window_le c.cs ha hsh
  rw [← hcfg] at w1 w2 w3
  have hlen : signals s = (s.pre.buffer.measurements.map (·.ts)).length := by simp [signals]
  rw [hlen]
  refine recent_of_subperm h1.sub (fun t ht z hz => ?_)
  obtain ⟨m, hm, rfl⟩ := List.mem_map.mp ht
  have hcur := h1.cur
  rw [hz, Option.getD_some] at hcur
  have hlow := h1.low m hm
  have : z - m.ts ≤ c.pre.buffer.keepMs + c.pre.buffer.shiftMs := by
    rw [← hcur]
    rcases h2 with h2 | h2 <;> omega
  exact (Int.cast_le.mpr this).trans w3

/-- **C121.** The accelerometer samples kept are as many as the messages, of any kind, at which the last sensor message was a sample
not older than five seconds compared with the last sample. For the filtered accelerations it is 1.4 seconds; up to three older ones
may stay. -/
theorem C121_samples (c : Cfg) (g : Garbage) (batches : List (List Measurement))
    (hord : Orderly (taken batches)) {s : State} {outs : List (Output × DebugState)}
    (h : navigateAll c (init c g) batches = .ok (s, outs)) :
    samples s = recent (sampleTimes g.sensor (taken batches)) 5000 ∧
    recent (sampleTimes g.sensor (taken batches)) 1400 ≤ magnitudes s ∧
    magnitudes s ≤ max 3 (recent (sampleTimes g.sensor (taken batches)) 1400) := by
  rw [navigateAll_eq] at h
  obtain ⟨infos, i1, -⟩ := fed_runs _ h
  obtain ⟨s2, infos2, pouts, e1, e2⟩ := Fusion.fusion_inv c.fusion g.magn g.accel (fedSensors g.sensor (taken batches))
  rw [i1, Option.some.injEq, Prod.mk.injEq] at e1
  obtain ⟨rfl, -⟩ := e1
  set fed := (fedSensors g.sensor (taken batches)).map Prod.fst with hfed
  obtain ⟨f1, -, f3⟩ := fed_ordered g.sensor hord
  have hA : Pedo.samples (Pedo.fusionOps fed) = Pedo.accelOf fed := Pedo.samples_fusion fed
  have hAo : Pedo.Ordered (Pedo.accelOf fed) := List.Pairwise.sublist List.filter_sublist f3
  have hz : ∀ m ∈ Pedo.accelOf fed, m.ts ≠ 0 := by
    intro m hm
    obtain ⟨p, hp, rfl⟩ := List.mem_map.mp (List.mem_filter.mp hm).1
    have := (f1 p hp).1
    omega
  have hst : sampleTimes g.sensor (taken batches) = (Pedo.accelOf fed).map (·.ts) := rfl
  rw [hst]
  have hb := Pedo.buf_run _ _ _ e2.pedo
  obtain ⟨w1, w2⟩ := Pedo.C53_windows _ (by rw [hA]; exact hAo) _ _ e2.pedo
  rw [hA] at hb w1
  have hlast : ∀ z, ((Pedo.accelOf fed).map (·.ts)).getLast? = some z → ∃ y, (Pedo.accelOf fed).getLast? = some y ∧ y.ts = z := by
    intro z hz
    rw [List.getLast?_map, Option.map_eq_some_iff] at hz
    exact hz
  have hlast' : ∀ y, (Pedo.accelOf fed).getLast? = some y → ((Pedo.accelOf fed).map (·.ts)).getLast? = some y.ts := by
    intro y hy
    rw [List.getLast?_map, hy]; rfl
  obtain ⟨st0, outs0, r1, r2⟩ := Pedo.run_hist fed hAo hz
  rw [e2.pedo, Option.some.injEq, Prod.mk.injEq] at r1
  obtain ⟨rfl, -⟩ := r1
  have hmag : magnitudes s = (s.fusion.pedometer.mags.map (·.ts)).length := by simp [magnitudes]
  refine ⟨le_antisymm ?_ ?_, ?_, ?_⟩
  · obtain ⟨d, hd⟩ := hb.suffix
    have : samples s = (s.fusion.pedometer.accel.map (·.ts)).length := by simp [samples]
    rw [this]
    refine recent_of_subperm ?_ ?_
    · refine List.Sublist.subperm (List.Sublist.map _ ?_)
      rw [hd]
      exact List.sublist_append_right _ _
    · intro t ht z hz
      obtain ⟨m, hm, rfl⟩ := List.mem_map.mp ht
      obtain ⟨y, hy, rfl⟩ := hlast z hz
      have := w1 m hm y hy
      exact_mod_cast this
  · obtain ⟨d, hd, hold⟩ := r2.accel
    have hcut : (Pedo.accelOf fed).map (·.ts) = d.map (·.ts) ++ s.fusion.pedometer.accel.map (·.ts) := by
      rw [← List.map_append, ← hd]
    refine (recent_of_cut hcut ?_).trans (by simp [samples])
    intro t ht hr
    obtain ⟨y, hy, rfl⟩ := List.mem_map.mp ht
    have hne : Pedo.accelOf fed ≠ [] := by rw [hd]; intro he; rw [(List.append_eq_nil_iff.mp he).1] at hy; cases hy
    have hz := List.getLast?_eq_some_getLast hne
    have h1 := hold y hy _ hz
    have h2 := hr _ (hlast' _ hz)
    have h3 : ((5000 : Int) : ℝ) < (((Pedo.accelOf fed).getLast hne).ts - y.ts : Int) := Int.cast_lt.mpr h1
    push_cast at h2 h3
    linarith
  · obtain ⟨d, hd, hold⟩ := r2.mags
    have hcut : (Pedo.accelOf fed).map (·.ts) = d.map (·.ts) ++ s.fusion.pedometer.mags.map (·.ts) := by
      rw [← List.map_append, ← hd]
      exact (Pedo.magsFrom_ts _ _).symm
    refine (recent_of_cut hcut ?_).trans (le_of_eq hmag.symm)
    intro t ht hr
    obtain ⟨y, hy, rfl⟩ := List.mem_map.mp ht
    have hne : Pedo.accelOf fed ≠ [] := by
      intro he
      rw [he] at hcut
      have := List.append_eq_nil_iff.mp hcut.symm
      rw [List.map_eq_nil_iff.mp this.1] at hy
      cases hy
    have hz := List.getLast?_eq_some_getLast hne
    have h1 := hold y hy _ hz
    have h2 := hr _ (hlast' _ hz)
    have h3 : ((1400 : Int) : ℝ) < (((Pedo.accelOf fed).getLast hne).ts - y.ts : Int) := Int.cast_lt.mpr h1
    push_cast at h2 h3
    linarith
  · by_cases hfe : fed = []
    · have hsub := hb.mags.length_le
      rw [hmag]
      have : Pedo.accelOf fed = [] := by rw [hfe]; rfl
      rw [this] at hsub
      exact hsub.trans (Nat.zero_le _)
    · have hops : ∃ ops', Pedo.fusionOps fed = ops' ++ [Pedo.PedoOp.steps] := by
        obtain ⟨l, a, hla⟩ := (List.eq_nil_or_concat fed).resolve_left hfe
        refine ⟨Pedo.fusionOps l ++ [.sample a], ?_⟩
        rw [hla, List.concat_eq_append]
        unfold Pedo.fusionOps
        rw [List.flatMap_append]
        simp
      obtain ⟨ops', hops⟩ := hops
      rcases w2 ops' hops with w2 | w2
      · exact w2.trans (le_max_left _ _)
      · refine le_trans ?_ (le_max_right _ _)
        rw [hmag]
        refine recent_of_subperm hb.mags.subperm ?_
        intro t ht z hz
        obtain ⟨q, hq, rfl⟩ := List.mem_map.mp ht
        obtain ⟨y, hy, rfl⟩ := hlast z hz
        obtain ⟨gl, hgl, hgt⟩ := Pedo.getLast_mags _ y hy
        obtain ⟨d, hd, -⟩ := r2.mags
        have hne : s.fusion.pedometer.mags ≠ [] := fun he => by rw [he] at hq; cases hq
        have hmem : gl ∈ s.fusion.pedometer.mags := by
          rw [hd, List.getLast?_append] at hgl
          rw [List.getLast?_eq_some_getLast hne, Option.some_or, Option.some.injEq] at hgl
          rw [← hgl]
          exact List.getLast_mem hne
        have := w2 gl hmem q hq
        rw [hgt] at this
        exact_mod_cast this

/-- **C121.** Everything else is bounded by constants: after any history whatsoever the client keeps at most 50 times between steps,
202 pressures, one count per floor and the fixes of the filter. -/
theorem C121_others {ls : List Level} {c : Cfg} (hc : Client ls c) (g : Garbage) (batches : List (List Measurement)) {s : State}
    {outs : List (Output × DebugState)} (h : navigateAll c (init c g) batches = .ok (s, outs)) :
    others s ≤ 252 + ls.length + c.cs.sigmaFilterWindow := by
  rw [navigateAll_eq] at h
  obtain ⟨infos, i1, -⟩ := fed_runs _ h
  obtain ⟨s2, infos2, pouts, e1, e2⟩ := Fusion.fusion_inv c.fusion g.magn g.accel (fedSensors g.sensor (taken batches))
  rw [i1, Option.some.injEq, Prod.mk.injEq] at e1
  obtain ⟨rfl, -⟩ := e1
  obtain ⟨p, o, p1, -, p2, -⟩ := Pedo.C53_safe (Pedo.fusionOps ((fedSensors g.sensor (taken batches)).map Prod.fst))
  rw [e2.pedo, Option.some.injEq, Prod.mk.injEq] at p1
  obtain ⟨rfl, -⟩ := p1
  have hz := sized_runs hc g _ h
  have hfl : s.level.history.floorCnt.length ≤ ls.length := by
    have hn : (s.level.history.floorCnt.map Prod.fst).Nodup := by
      have : (s.level.history.floorCnt.map Prod.fst).Pairwise (· < ·) := by
        rw [List.pairwise_map]; exact hz.sorted
      exact this.imp (fun h => ne_of_lt h)
    have := (hn.subperm hz.keys).length_le
    simpa using this
  have hbuf : s.outdoor.buf.length ≤ c.cs.sigmaFilterWindow := by
    cases hs : c.cs.useGpsSigmaFilter with
    | true => exact hz.inv.buffer hs
    | false => rw [hz.fixes hs]; exact Nat.zero_le _
  have h1 := hz.new
  have h2 := hz.stored
  unfold others
  omega

end Verif.Footprint
