import Verif.Shift.Client
import Verif.Nav.Examples

/-!
# C116: the answers depend on time differences only

All messages of a session are moved by the same amount of time: the answers do not change, as long as the clock does not
start at the beginning of the session.
-/

namespace Verif.Shift

open Verif Verif.Levels Verif.Nav
open Verif.Knn (Result)

theorem records_later (δ : Int) (b : List Measurement) : records (b.map (later δ)) = (records b).map (later δ) := by
  unfold records
  rw [List.zipIdx_map, List.filter_map, List.map_map, List.map_map]
  have e : (fun p : Measurement × ℕ => decide (∀ e ∈ (b.map (later δ)).take p.2, e.ts ≤ p.1.ts)) ∘ Prod.map (later δ) id =
      (fun p : Measurement × ℕ => decide (∀ e ∈ b.take p.2, e.ts ≤ p.1.ts)) := by
    funext p
    refine decide_eq_decide.mpr ?_
    change (∀ e ∈ (b.map (later δ)).take p.2, e.ts ≤ p.1.ts + δ) ↔ _
    have et : (b.map (later δ)).take p.2 = (b.take p.2).map (later δ) := (List.map_take).symm
    rw [et, List.forall_mem_map]
    exact forall₂_congr (fun e _ => by change e.ts + δ ≤ p.1.ts + δ ↔ _; omega)
  rw [e]
  rfl

theorem taken_later (δ : Int) (batches : List (List Measurement)) : taken (allLater δ batches) = (taken batches).map (later δ) := by
  unfold taken allLater
  rw [List.flatMap_map, List.map_flatMap]
  congr 1
  funext b
  exact records_later δ b

theorem mem_taken {batches : List (List Measurement)} {m : Measurement} (h : m ∈ taken batches) : m ∈ batches.flatten := by
  unfold taken at h
  obtain ⟨b, hb, hm⟩ := List.mem_flatMap.mp h
  refine List.mem_flatten.mpr ⟨b, hb, ?_⟩
  unfold records at hm
  obtain ⟨p, hp, rfl⟩ := List.mem_map.mp hm
  exact (List.fst_mem_of_mem_zipIdx (List.mem_of_mem_filter hp))

theorem wellStarted_later (δ : Int) {ms : List Measurement} (h : WellStarted ms) : WellStarted (ms.map (later δ)) := by
  constructor
  · intro m hm
    rw [List.head?_map] at hm
    obtain ⟨m', h1, rfl⟩ := Option.map_eq_some_iff.mp hm
    exact h.sensor m' h1
  · intro a m b e hl
    obtain ⟨a', r, e1, rfl, e2⟩ := List.map_eq_append_iff.mp e
    obtain ⟨m', b', e3, rfl, rfl⟩ := List.map_eq_cons_iff.mp e2
    rw [e3] at e1
    obtain ⟨n, hn, d, hd⟩ := h.nmea a' m' b' e1 hl
    exact ⟨later δ n, List.mem_map_of_mem hn, d, hd⟩

/-- The least time stamp that is late enough. -/
noncomputable def floorTs (cs : CommonSettings) : Int := if cs.useStops = true then max 2000 (⌊1000 * cs.stopUpdateTime⌋ + 1) else 2000

theorem floor_le {cs : CommonSettings} {t : Int} (h : LateEnough cs t) : floorTs cs ≤ t := by
  unfold floorTs
  by_cases hu : cs.useStops = true
  · rw [if_pos hu]
    exact max_le h.two (Int.floor_lt.mpr (h.stops hu))
  · rw [if_neg hu]; exact h.two

theorem floor_two (cs : CommonSettings) : 2000 ≤ floorTs cs := by
  unfold floorTs
  split_ifs
  · exact le_max_left _ _
  · exact le_rfl

theorem floor_stops (cs : CommonSettings) : StopsOk (floorTs cs) cs := by
  intro hu
  have h2 := floor_two cs
  unfold Post.toLongLong
  split_ifs with h0
  · unfold floorTs
    rw [if_pos hu]
    exact lt_of_lt_of_le (Int.lt_add_one_iff.mpr le_rfl) (le_max_right _ _)
  · have : ⌈(1000 : ℝ) * cs.stopUpdateTime⌉ ≤ 0 := Int.ceil_le.mpr (by push_cast; linarith)
    omega

theorem blind {s : Radio.Sorts} (h : TimeBlind s) (δ : Int) : Blind δ s := ⟨h.byId δ, h.byTs δ⟩

/-- The forward case, with the two messages that are left indeterminate moved as well. -/
theorem forward {ls : List Level} {c : Cfg} (hc : Client ls c) (hb : TimeBlind c.env.radioSorts) {δ : Int} (hδ : 0 ≤ δ)
    (batches : List (List Measurement)) (hlate : ∀ m ∈ batches.flatten, LateEnough c.cs m.ts) {g g' : Garbage}
    (h1 : LateEnough c.cs g.sensor.ts) (h2 : LateEnough c.cs g.nmea.ts) (h3 : g'.sensor = later δ g.sensor)
    (h4 : g'.nmea = later δ g.nmea) :
    ∃ s s' outs, navigateAll c (init c g) batches = .ok (s, outs) ∧
      navigateAll c (init c g') (allLater δ batches) = .ok (s', outs) := by
  have hL := floor_two c.cs
  generalize hLe : floorTs c.cs = L at hL
  have hf : ∀ {t}, LateEnough c.cs t → L ≤ t := fun h => hLe ▸ floor_le h
  obtain ⟨a1, a2, outs, e1, e2⟩ := C82_other_memory hc g ⟨L, g.sensor, g.nmea, (.ACCELEROMETER, L), (.ACCELEROMETER, L)⟩ rfl rfl batches
  obtain ⟨b1, b2, outs', e3, e4⟩ := C82_other_memory hc g'
    ⟨L + δ, later δ g.sensor, later δ g.nmea, (.ACCELEROMETER, L + δ), (.ACCELEROMETER, L + δ)⟩ h3 h4 (allLater δ batches)
  obtain ⟨i1, i2⟩ := init_sh (L := L) (δ := δ) (by omega) hδ c (g := ⟨L, g.sensor, g.nmea, (.ACCELEROMETER, L), (.ACCELEROMETER, L)⟩) le_rfl
    (hf h1) (hf h2) le_rfl le_rfl
  have hm : ∀ m ∈ taken batches, L ≤ m.ts := fun m hm => hf (hlate m (mem_taken hm))
  have hr := runs_sh hL hδ hc.radioSorts (blind hb δ) (hLe ▸ floor_stops c.cs) i2 (taken batches) hm
  have em : (taken batches).map (shS L δ) = (taken batches).map (later δ) := map_shS hm
  rw [navigateAll_eq] at e2
  rw [navigateAll_eq, taken_later, ← em, i1, hr, e2] at e4
  have : outs = outs' := by
    have := e4
    simp only [shRes, Result.ok.injEq, Prod.mk.injEq] at this
    exact this.2
  subst this
  exact ⟨a1, b1, outs, e1, e3⟩

theorem allLater_back (δ : Int) (batches : List (List Measurement)) : allLater (-δ) (allLater δ batches) = batches := by
  unfold allLater
  rw [List.map_map]
  conv_rhs => rw [← List.map_id batches]
  refine List.map_congr_left (fun b _ => ?_)
  change (b.map (later δ)).map (later (-δ)) = b
  rw [List.map_map]
  conv_rhs => rw [← List.map_id b]
  refine List.map_congr_left (fun m _ => ?_)
  obtain ⟨d, t⟩ := m
  simp [later]

/-- **C116.** If all messages of a session come the same time later or earlier, and the two messages that the constructor
leaves indeterminate as well, the answers are the same. -/
theorem C116_same_memory {ls : List Level} {c : Cfg} (hc : Client ls c) (hb : TimeBlind c.env.radioSorts) (δ : Int)
    (batches : List (List Measurement))
    (hlate : ∀ m ∈ batches.flatten, LateEnough c.cs m.ts ∧ LateEnough c.cs (m.ts + δ)) {g g' : Garbage}
    (hs : LateEnough c.cs g.sensor.ts ∧ LateEnough c.cs (g.sensor.ts + δ))
    (hn : LateEnough c.cs g.nmea.ts ∧ LateEnough c.cs (g.nmea.ts + δ))
    (hs' : g'.sensor = later δ g.sensor) (hn' : g'.nmea = later δ g.nmea) :
    ∃ s s' outs, navigateAll c (init c g) batches = .ok (s, outs) ∧
      navigateAll c (init c g') (allLater δ batches) = .ok (s', outs) := by
  rcases le_total 0 δ with h | h
  · exact forward hc hb h batches (fun m hm => (hlate m hm).1) hs.1 hn.1 hs' hn'
  · have hb1 : ∀ m ∈ (allLater δ batches).flatten, LateEnough c.cs m.ts := by
      intro m hm
      obtain ⟨b, hb, hm⟩ := List.mem_flatten.mp hm
      obtain ⟨b', hb', rfl⟩ := List.mem_map.mp hb
      obtain ⟨m', hm', rfl⟩ := List.mem_map.mp hm
      exact (hlate m' (List.mem_flatten.mpr ⟨b', hb', hm'⟩)).2
    obtain ⟨s, s', outs, e1, e2⟩ := forward hc hb (δ := -δ) (by omega) (allLater δ batches) hb1 (g := g') (g' := g)
      (by rw [hs']; exact hs.2) (by rw [hn']; exact hn.2) (by rw [hs']; simp [later]) (by rw [hn']; simp [later])
    rw [allLater_back] at e2
    exact ⟨s', s, outs, e2, e1⟩

/-- **C116.** If all messages of a session come the same time later or earlier, the answers are the same, whatever the
uninitialised memory contains: only time differences matter. The session has to be well started in the sense of C82. -/
theorem C116_shift {ls : List Level} {c : Cfg} (hc : Client ls c) (hb : TimeBlind c.env.radioSorts) (δ : Int)
    (batches : List (List Measurement))
    (hlate : ∀ m ∈ batches.flatten, LateEnough c.cs m.ts ∧ LateEnough c.cs (m.ts + δ)) (hw : WellStarted (taken batches))
    (g g' : Garbage) :
    ∃ s s' outs, navigateAll c (init c g) batches = .ok (s, outs) ∧
      navigateAll c (init c g') (allLater δ batches) = .ok (s', outs) := by
  have hex : ∃ t, LateEnough c.cs t ∧ LateEnough c.cs (t + δ) := by
    refine ⟨max (floorTs c.cs) (floorTs c.cs - δ), ?_⟩
    have key : ∀ {t}, floorTs c.cs ≤ t → LateEnough c.cs t := by
      intro t ht
      refine ⟨le_trans (floor_two _) ht, fun hu => ?_⟩
      unfold floorTs at ht
      rw [if_pos hu] at ht
      have h1 := le_trans (le_max_right _ _) ht
      have h2 : ⌊1000 * c.cs.stopUpdateTime⌋ < t := by omega
      exact Int.floor_lt.mp h2
    exact ⟨key (le_max_left _ _), key (by have := le_max_right (floorTs c.cs) (floorTs c.cs - δ); omega)⟩
  obtain ⟨t, ht⟩ := hex
  let g1 : Garbage := ⟨t, ⟨⟨.ACCELEROMETER, ⟨0, 0, 0⟩⟩, t⟩, ⟨⟨0, 0⟩, t⟩, (.ACCELEROMETER, t), (.ACCELEROMETER, t)⟩
  let g2 : Garbage := ⟨t, ⟨⟨.ACCELEROMETER, ⟨0, 0, 0⟩⟩, t + δ⟩, ⟨⟨0, 0⟩, t + δ⟩, (.ACCELEROMETER, t), (.ACCELEROMETER, t)⟩
  obtain ⟨s, s', outs, e1, e2⟩ := C116_same_memory hc hb δ batches hlate (g := g1) (g' := g2) ht ht rfl rfl
  obtain ⟨a, a', o1, e3, e4⟩ := C82_well_started hc g g1 batches hw
  obtain ⟨b, b', o2, e5, e6⟩ := C82_well_started hc g' g2 (allLater δ batches) (by rw [taken_later]; exact wellStarted_later δ hw)
  rw [e1] at e4
  rw [e2] at e6
  cases e4
  cases e6
  exact ⟨a, b, _, e3, e5⟩

/-- Insertion sort is blind for time. -/
theorem insertionSorts_blind : TimeBlind Radio.insertionSorts := by
  constructor
  · intro δ l
    exact (List.map_insertionSort (fun a b : RadioMeasurement => a.data.id ≤ b.data.id)
      (fun a b : RadioMeasurement => a.data.id ≤ b.data.id) (later δ) l (fun a _ b _ => Iff.rfl)).symm
  · intro δ l
    refine (List.map_insertionSort (fun a b : RadioMeasurement => a.ts ≤ b.ts) (fun a b : RadioMeasurement => a.ts ≤ b.ts)
      (later δ) l (fun a _ b _ => ?_)).symm
    simp [later]

theorem ex_records (m : Measurement) : records [m] = [m] := records_ordered _ (by simp [Ordered])

theorem ex_taken (t : Int) (f : Measurement) : taken [[exAccel t], [⟨.nmea ⟨0, 0⟩, t⟩], [f]] = [exAccel t, ⟨.nmea ⟨0, 0⟩, t⟩, f] := by
  simp [taken, ex_records]

theorem ex_wellStarted (t : Int) (f : Measurement) : WellStarted (taken [[exAccel t], [⟨.nmea ⟨0, 0⟩, t⟩], [f]]) := by
  rw [ex_taken]
  refine ⟨fun m hm => ?_, ?_⟩
  · simp at hm; rw [← hm]; exact ⟨_, rfl⟩
  · rintro a m b he ⟨d, hd, hl⟩
    rcases a with _ | ⟨x, _ | ⟨y, a⟩⟩
    · simp at he; rw [← he.1] at hd; simp [exAccel] at hd; rw [← hd] at hl; cases hl
    · simp at he; rw [← he.2.1] at hd; cases hd
    · simp at he; exact ⟨y, by simp, ⟨0, 0⟩, by rw [← he.2.1]⟩

/-- Non-vacuity: a client, a well started session with a fix at second 3, moved by a day and moved by half a second
backwards. -/
example : Client [exLevel] exCfg ∧ TimeBlind exCfg.env.radioSorts ∧
    ∀ δ ∈ [86400000, -500], (∀ m ∈ ([[exAccel 3000], [⟨.nmea ⟨0, 0⟩, 3000⟩], [{ exFix with ts := 3000 }]] : List (List Measurement)).flatten,
      LateEnough exCfg.cs m.ts ∧ LateEnough exCfg.cs (m.ts + δ)) ∧
      WellStarted (taken [[exAccel 3000], [⟨.nmea ⟨0, 0⟩, 3000⟩], [{ exFix with ts := 3000 }]]) := by
  refine ⟨exClient, insertionSorts_blind, fun δ hδ => ⟨fun m hm => ?_, ex_wellStarted _ _⟩⟩
  have ht : m.ts = 3000 := by
    simp at hm
    rcases hm with rfl | rfl | rfl <;> rfl
  have hs : exCfg.cs.useStops = false := rfl
  simp at hδ
  rcases hδ with rfl | rfl <;> rw [ht] <;>
    exact ⟨⟨by norm_num, fun h => by rw [hs] at h; cases h⟩, ⟨by norm_num, fun h => by rw [hs] at h; cases h⟩⟩

/-! ## Near time 0 -/

/-- Settings with the filter of GNSS fixes. -/
noncomputable def sigSettings : CommonSettings := { useGpsSigmaFilter := true }

/-- A client with the filter of GNSS fixes. -/
noncomputable def sigCfg : Cfg := { exCfg with cs := sigSettings, pre := Radio.mkCfg (collect [exLevel]) sigSettings,
                                               fusion := Fusion.fusionConfig sigSettings }

theorem sigClient : Client [exLevel] sigCfg where
  map := exClient.map
  settings := ⟨fun _ => Nat.one_pos, fun h => (by cases h)⟩
  sort := exClient.sort
  radioSorts := exClient.radioSorts
  built := by
    refine ⟨[("A", ⟨-59, 10⟩)], ?_⟩
    have hz : Estim.zoneParams [("A", ⟨-59, 10⟩)] (collect [exLevel]) = some ([("A", -59)], [("A", 10)]) := by
      simp [Estim.zoneParams, collect_levels, exLevel, bareLevel, Level.addTransmitters, List.foldlM, StdMap.find?, StdMap.set,
        StdMap.insertSorted]
    unfold mkCfg createPositionEstimator
    rw [if_neg (by simp [sigCfg, sigSettings])]
    have : Estim.zoneParams [("A", ⟨-59, 10⟩)] (collect [exLevel]) = some ([("A", -59)], [("A", 10)]) := hz
    rw [this]
    simp [sigCfg, exCfg, createLevelEstimator, sigSettings]

theorem sig_silent {ms : List Measurement} {m : Measurement} (h : ∀ e ∈ ms ++ [m], ∀ d, e.data ≠ .radio d) :
    Silent [exLevel] sigCfg.cs ms m := by
  rintro e he ⟨d, hd, -⟩
  exact absurd hd (h e he d)

/-- A message that leaves the outdoor estimator in its initial state, or the first fix. -/
theorem sig_step {g : Garbage} {ms : List Measurement} {s : State} (h : Traced [exLevel] sigCfg g ms s)
    (h0 : s.outdoor = Estim.outdoorInit) (hp : s.position.isEmpty = true) (m : Measurement)
    (hq : ∀ e ∈ ms ++ [m], ∀ d, e.data ≠ .radio d) :
    ∃ s' out dbg, navigate sigCfg s [m] = .ok (s', [(out, dbg)]) ∧
      ((lastSensor g.sensor (ms ++ [m])).data.type ≠ .LOCATION →
        s'.outdoor = Estim.outdoorInit ∧ s'.position.isEmpty = true ∧ out.status = .NO_LEVEL) ∧
      ((lastSensor g.sensor (ms ++ [m])).data = ⟨.LOCATION, ⟨0, 0, 5⟩⟩ → (lastNmea g.nmea (ms ++ [m])).data = ⟨0, 0⟩ →
        out.status = if m.ts = 0 then .OK else .NO_LEVEL) := by
  obtain ⟨s', out, dbg, x, l, h1, hst, -, -, -, -, hcase⟩ := silent_step sigClient h (sig_silent hq)
  refine ⟨s', out, dbg, h1, ?_⟩
  have es : (Radio.updateMeasurements sigCfg.pre s.pre m).sensor = lastSensor g.sensor (ms ++ [m]) := by
    rw [update_sensor, h.sensor]; exact (lastSensor_snoc _ _ _).symm
  have en : (Radio.updateMeasurements sigCfg.pre s.pre m).nmea = lastNmea g.nmea (ms ++ [m]) := by
    rw [update_nmea, h.nmea]; exact (lastNmea_snoc _ _ _).symm
  obtain ⟨-, -, -, -, -, -, -, -, h7⟩ := sense_parts hst.sense
  rw [es, en, h0] at h7
  obtain ⟨-, -, -, f4⟩ := locate_frame hst.locate
  have hshow := stepped_shows sigClient hst
  have none_case : x.outdoorPos.isEmpty = true → s'.position.isEmpty = true ∧ out.status = .NO_LEVEL := by
    intro he
    rcases hcase with ⟨hf, -, -⟩ | ⟨-, h8, h9⟩
    · rw [he] at hf; cases hf
    · have : s'.position.isEmpty = true := by rw [h8]; exact hp
      refine ⟨this, ?_⟩
      rw [hshow.2.2 this, h9]
      rfl
  refine ⟨fun hl => ?_, fun hl hn => ?_⟩
  · unfold Estim.outdoorPosition Estim.extractGpsPosition at h7
    simp only [if_neg hl] at h7
    have hd : x.outdoorPos = Position.default ∧ x.outdoor = Estim.outdoorInit := by
      have hb : ∀ P : Prop, ∀ [Decidable P], (if P then ({ Estim.outdoorInit with buf := [] } : Estim.OutdoorState) else Estim.outdoorInit) = Estim.outdoorInit := by
        intro P _; split_ifs <;> rfl
      rw [hb] at h7
      split_ifs at h7
      · simp only [Option.some.injEq, Prod.mk.injEq] at h7
        exact ⟨h7.1.symm, h7.2.symm⟩
      · simp only [Option.some.injEq, Prod.mk.injEq] at h7
        exact ⟨h7.1.symm, h7.2.symm⟩
    obtain ⟨k1, k2⟩ := none_case (by rw [hd.1]; rfl)
    exact ⟨by rw [hst.state, f4]; exact hd.2, k1, k2⟩
  · have e0 : Geo.gpsToLocal ⟨0, 0⟩ exLevel.bindingPoint = ⟨0, 0⟩ :=
      (Geo.C01_scale ⟨0, 0⟩ ⟨0, 0⟩ (by constructor <;> norm_num) (by constructor <;> norm_num)).2
    have hb : ∀ P : Prop, ∀ [Decidable P], (if P then ({ Estim.outdoorInit with buf := [] } : Estim.OutdoorState) else Estim.outdoorInit) = Estim.outdoorInit := by
      intro P _; split_ifs <;> rfl
    have hcov : Estim.Box.Covers exLevel.geometry.boundingBox (⟨0, 0⟩ : Geo.XYPoint) := by
      simp [Estim.Box.Covers, exLevel, bareLevel, Level.addTransmitters]
    have hlv : sigCfg.levels.levels = [exLevel] := by
      change (collect [exLevel]).levels = _
      rw [collect_levels]
    have hsg : sigCfg.cs.useGpsSigmaFilter = true := rfl
    have hlen : ([] : List Geo.XYPoint).length ≠ sigCfg.cs.sigmaFilterWindow := by
      change 0 ≠ 1
      norm_num
    have hts : Estim.outdoorInit.last.ts = 0 := rfl
    have hbuf : Estim.outdoorInit.buf = [] := rfl
    have hsat : Estim.extractNumberOfSatellites (lastNmea g.nmea (ms ++ [m])) = 0 := by
      unfold Estim.extractNumberOfSatellites
      rw [hn]
      rfl
    unfold Estim.outdoorPosition Estim.extractGpsPosition at h7
    simp only [hl, if_true] at h7
    rw [hb, hlv, hsat] at h7
    unfold Estim.outdoorLevels at h7
    dsimp only at h7
    rw [e0, if_pos (Or.inl hcov), hts, hbuf, hsg] at h7
    unfold Estim.sigmaAdd at h7
    rw [if_neg hlen] at h7
    by_cases hz : m.ts = 0
    · rw [if_pos hz]
      rw [if_neg (not_not.mpr hz)] at h7
      simp only [Option.some.injEq, Prod.mk.injEq, Bool.not_true, Bool.false_or, ne_eq, not_true_eq_false, decide_false,
        Bool.false_and, Bool.false_eq_true, if_false] at h7
      have hf : x.outdoorPos.isEmpty = false := by rw [← h7.1]
      rcases hcase with ⟨-, hp', -⟩ | ⟨he, -⟩
      · rcases hshow.1 with ⟨he, -⟩ | ⟨-, hok, -⟩
        · rw [hp', hf] at he; cases he
        · exact hok
      · rw [hf] at he; cases he
    · rw [if_neg hz]
      rw [if_pos hz, if_pos rfl] at h7
      simp only [Bool.not_false, Bool.true_or, if_true, Option.some.injEq, Prod.mk.injEq] at h7
      exact (none_case (by rw [← h7.1]; rfl)).2

/-- The session: an accelerometer message, an NMEA message without satellites and a fix, all at time `t`. -/
noncomputable def sigSession (t : Int) : List (List Measurement) :=
  [[exAccel t], [⟨.nmea ⟨0, 0⟩, t⟩], [{ exFix with ts := t }]]

theorem sig_session (t : Int) (g : Garbage) : ∃ s a b o, navigateAll sigCfg (init sigCfg g) (sigSession t) = .ok (s, [a, b, o]) ∧
    o.1.status = if t = 0 then .OK else .NO_LEVEL := by
  have t0 : Traced [exLevel] sigCfg g [] (init sigCfg g) := traced_runs sigClient g [] rfl
  obtain ⟨s1, o1, d1, n1, k1, -⟩ := sig_step t0 rfl rfl (exAccel t) (by simp [exAccel])
  obtain ⟨a1, a2, -⟩ := k1 (by simp [lastSensor, exAccel])
  have r1 : navigateAll sigCfg (init sigCfg g) [[exAccel t]] = .ok (s1, [(o1, d1)]) := by
    unfold navigateAll; rw [n1]; rfl
  have t1 := history_traced sigClient r1
  have e1 : taken [[exAccel t]] = [exAccel t] := by simp [taken, ex_records]
  rw [e1] at t1
  obtain ⟨s2, o2, d2, n2, k2, -⟩ := sig_step t1 a1 a2 ⟨.nmea ⟨0, 0⟩, t⟩ (by simp [exAccel])
  obtain ⟨b1, b2, -⟩ := k2 (by simp [lastSensor, exAccel])
  have r2 : navigateAll sigCfg (init sigCfg g) [[exAccel t], [⟨.nmea ⟨0, 0⟩, t⟩]] = .ok (s2, [(o1, d1), (o2, d2)]) := by
    unfold navigateAll; rw [n1]; simp only [andThen]; unfold navigateAll; rw [n2]; rfl
  have t2 := history_traced sigClient r2
  have e2 : taken [[exAccel t], [⟨.nmea ⟨0, 0⟩, t⟩]] = [exAccel t, ⟨.nmea ⟨0, 0⟩, t⟩] := by simp [taken, ex_records]
  rw [e2] at t2
  obtain ⟨s3, o3, d3, n3, -, k3⟩ := sig_step t2 b1 b2 ⟨exFix.data, t⟩ (by simp [exAccel, exFix])
  refine ⟨s3, (o1, d1), (o2, d2), (o3, d3), ?_, k3 (by simp [lastSensor, exFix]) (by simp [lastNmea, exFix])⟩
  unfold sigSession
  unfold navigateAll; rw [n1]; simp only [andThen]; unfold navigateAll; rw [n2]; simp only [andThen]; unfold navigateAll; rw [n3]; rfl

/-- **C116, the start of the clock.** Time 0 is special: a session with a fix at time 0 gets a position for the fix, the
same session a second or any other time later does not (the filter of GNSS fixes takes the initial time stamp 0 for that of
an earlier fix). -/
theorem C116_start (δ : Int) (hδ : δ ≠ 0) (g g' : Garbage) :
    Client [exLevel] sigCfg ∧ TimeBlind sigCfg.env.radioSorts ∧ WellStarted (taken (sigSession 0)) ∧
    ∃ s a b o s' a' b' o', navigateAll sigCfg (init sigCfg g) (sigSession 0) = .ok (s, [a, b, o]) ∧
      navigateAll sigCfg (init sigCfg g') (allLater δ (sigSession 0)) = .ok (s', [a', b', o']) ∧
      o.1.status = .OK ∧ o'.1.status = .NO_LEVEL := by
  obtain ⟨s, a, b, o, h1, h2⟩ := sig_session 0 g
  obtain ⟨s', a', b', o', h3, h4⟩ := sig_session δ g'
  have e : allLater δ (sigSession 0) = sigSession δ := by
    simp [allLater, sigSession, later, exAccel, exFix]
  refine ⟨sigClient, insertionSorts_blind, ex_wellStarted _ _, s, a, b, o, s', a', b', o', h1, by rw [e]; exact h3, ?_, ?_⟩
  · rw [h2, if_pos rfl]
  · rw [h4, if_neg hδ]

end Verif.Shift
