import Verif.Unread.Spec
import Verif.Same.Client

/-!
# C131: the two clients, part by part
-/

namespace Verif.Unread

open Verif Verif.Levels Verif.Nav Verif.Same
open Verif.Knn (Result)
open Verif.Bias (Rel rel_andThen rel_eq)

open Classical in
/-- The weight of the power in a signal without what does not matter. -/
noncomputable def powerBit (cs : CommonSettings) : ℝ := if PowerRead cs then 1 else 0

/-- A sensor message without what does not matter. -/
noncomputable def bareSensor (cs : CommonSettings) (d : SensorData) : SensorData :=
  match d.type with
  | .BAROMETER => ⟨d.type, ⟨if cs.useBarometer then d.values.x else 0, 0, 0⟩⟩
  | .ORIENTATION => ⟨d.type, ⟨d.values.x, 0, 0⟩⟩
  | _ => d

/-- An NMEA message without what does not matter. -/
def bareNmea (n : NmeaData) : NmeaData := ⟨1, satellites n⟩

/-- A message without what does not matter. -/
noncomputable def bareMsg (cs : CommonSettings) (m : Measurement) : Measurement :=
  match m.data with
  | .radio r => ⟨.radio (bare (powerBit cs) r), m.ts⟩
  | .sensor d => ⟨.sensor (bareSensor cs d), m.ts⟩
  | .nmea n => ⟨.nmea (bareNmea n), m.ts⟩

theorem bareMsg_ts (cs : CommonSettings) (m : Measurement) : (bareMsg cs m).ts = m.ts := by
  obtain ⟨data, ts⟩ := m
  cases data <;> rfl

theorem sensor_type (cs : CommonSettings) (d : SensorData) : (bareSensor cs d).type = d.type := by
  obtain ⟨t, v⟩ := d
  cases t <;> rfl

/-- Messages that agree in what matters are equal without the rest. -/
theorem bare_same {cs : CommonSettings} {m m' : Measurement} (h : SameRead cs m m') : bareMsg cs m' = bareMsg cs m := by
  obtain ⟨data, ts⟩ := m
  obtain ⟨data', ts'⟩ := m'
  obtain ⟨h0, h⟩ := h
  dsimp only at h0 h
  subst h0
  cases data with
  | radio r =>
    cases data' with
    | radio r' =>
      obtain ⟨h1, h2, h3, h4⟩ := h
      have hp : powerBit cs * r'.power = powerBit cs * r.power := by
        unfold powerBit
        split_ifs with hk
        · rw [h4 hk]
        · rw [zero_mul, zero_mul]
      simp only [bareMsg, bare, h1, h2, h3, hp]
    | sensor d => exact h.elim
    | nmea n => exact h.elim
  | sensor d =>
    cases data' with
    | radio r' => exact h.elim
    | nmea n => exact h.elim
    | sensor d' =>
      obtain ⟨t, v⟩ := d
      obtain ⟨t', v'⟩ := d'
      obtain ⟨h1, h⟩ := h
      dsimp only at h1 h
      subst h1
      cases t' with
      | BAROMETER =>
        simp only [bareMsg, bareSensor]
        by_cases hb : cs.useBarometer = true
        · rw [if_pos hb, if_pos hb, h hb]
        · rw [if_neg hb, if_neg hb]
      | ORIENTATION => simp only [bareMsg, bareSensor]; rw [show v'.x = v.x from h]
      | ACCELEROMETER => simp only [bareMsg, bareSensor]; rw [show v' = v from h]
      | MAGNETOMETER => simp only [bareMsg, bareSensor]; rw [show v' = v from h]
      | GYROSCOPE => simp only [bareMsg, bareSensor]; rw [show v' = v from h]
      | LOCATION => simp only [bareMsg, bareSensor]; rw [show v' = v from h]
  | nmea n =>
    cases data' with
    | radio r' => exact h.elim
    | sensor d => exact h.elim
    | nmea n' => simp only [bareMsg, bareNmea]; rw [show satellites n' = satellites n from h]

/-! ## The preprocessor -/

/-- A stored signal without what does not matter. -/
noncomputable def bareMsr (p : ℝ) (m : RadioMeasurement) : RadioMeasurement := ⟨bare p m.data, m.ts⟩

/-- The stored signals without what does not matter. -/
noncomputable def bareBuf (p : ℝ) (b : Radio.BufferState) : Radio.BufferState := { b with measurements := b.measurements.map (bareMsr p) }

/-- The preprocessor without what does not matter. -/
noncomputable def barePre (cs : CommonSettings) (s : Radio.State) : Radio.State :=
  { s with buffer := bareBuf (powerBit cs) s.buffer, sensor := ⟨bareSensor cs s.sensor.data, s.sensor.ts⟩,
           nmea := ⟨bareNmea s.nmea.data, s.nmea.ts⟩ }

/-- The client without what does not matter. -/
noncomputable def bareState (cs : CommonSettings) (s : State) : State := { s with pre := barePre cs s.pre }

theorem add_bare (p : ℝ) (cfg : Radio.BufferCfg) (b : Radio.BufferState) (m : RadioMeasurement) :
    Radio.addMeasurement cfg (bareBuf p b) (bareMsr p m) = bareBuf p (Radio.addMeasurement cfg b m) := by
  unfold Radio.addMeasurement
  by_cases h : b.currentTs = 0
  · have h' : (bareBuf p b).currentTs = 0 := h
    simp only [if_pos h, if_pos h']
    simp [bareBuf, bareMsr, bare]
  · have h' : ¬ (bareBuf p b).currentTs = 0 := h
    simp only [if_neg h, if_neg h']
    simp [bareBuf, bareMsr, bare]

theorem valid_bare (p : ℝ) (cfg : Radio.Cfg) (r : RadioData) :
    Radio.getValidSignalEntry cfg (bare p r) = (Radio.getValidSignalEntry cfg r).map (bare p) := by
  have e1 : (bare p r).id = r.id := rfl
  have e2 : (bare p r).type = r.type := rfl
  have e3 : (bare p r).rssi = r.rssi := rfl
  unfold Radio.getValidSignalEntry
  rw [e1, e2, e3]
  dsimp only
  generalize (if cfg.measurementType = .RSSI ∧ Radio.isRssiValid cfg r.rssi = false then false
    else if cfg.measurementType ≠ .RSSI ∧ r.type ≠ .WIFI_RTT then false
    else (cfg.useUnknownTxs || ((findLevelByTransmitterId cfg.levelIndex r.id).isSome && Radio.isTransmitterSupported cfg r.id))) = v
  cases (v && Radio.isSignalTypeSupported cfg r.type) <;> rfl

theorem update_bare (cs : CommonSettings) (cfg : Radio.Cfg) (s : Radio.State) (m : Measurement) :
    Radio.updateMeasurements cfg (barePre cs s) (bareMsg cs m) = barePre cs (Radio.updateMeasurements cfg s m) := by
  obtain ⟨data, ts⟩ := m
  cases data with
  | radio r =>
    unfold Radio.updateMeasurements bareMsg
    dsimp only
    rw [valid_bare]
    cases Radio.getValidSignalEntry cfg r with
    | none => rfl
    | some v =>
      have := add_bare (powerBit cs) cfg.buffer s.buffer ⟨v, ts⟩
      simp only [Option.map_some, barePre]
      congr 1
  | sensor d => rfl
  | nmea n => rfl

theorem average_bare (p : ℝ) (l : List RadioMeasurement) :
    (Radio.averageLoop (l.map (bareMsr p))).map (bare p) = ((Radio.averageLoop l).map (bare p)).map (bare p) := by
  induction hn : l.length using Nat.strong_induction_on generalizing l with
  | _ n ih =>
    cases l with
    | nil => simp [Radio.averageLoop]
    | cons x xs =>
      rw [List.map_cons, Radio.averageLoop, Radio.averageLoop, List.map_cons, List.map_cons, List.map_cons, List.takeWhile_map,
        List.dropWhile_map]
      have ec : ((fun m : RadioMeasurement => !decide ((bareMsr p x).data.id < m.data.id)) ∘ bareMsr p) =
          (fun m => !decide (x.data.id < m.data.id)) := by
        funext m; rfl
      rw [ec]
      congr 1
      · generalize xs.takeWhile (fun m => !decide (x.data.id < m.data.id)) = l
        have hr : ((bareMsr p x :: l.map (bareMsr p)).foldl (fun sum m => sum + m.data.rssi) (0 : ℝ)) =
            (x :: l).foldl (fun sum m => sum + m.data.rssi) 0 := by
          rw [← List.map_cons, List.foldl_map]
          rfl
        unfold Radio.averageRange
        dsimp only
        rw [hr, List.length_cons, List.length_map, List.length_cons]
        rfl
      · refine ih _ ?_ _ rfl
        rw [← hn, List.length_cons]
        exact Nat.lt_succ_of_le (List.dropWhile_suffix _).length_le

/-- Removing the rest a second time changes nothing. -/
theorem bare_twice {p : ℝ} (hp : p = 0 ∨ p = 1) (m : RadioData) : bare p (bare p m) = bare p m := by
  rcases hp with rfl | rfl <;> simp [bare]

theorem powerBit_bit (cs : CommonSettings) : powerBit cs = 0 ∨ powerBit cs = 1 := by
  unfold powerBit
  split_ifs
  · exact .inr rfl
  · exact .inl rfl

theorem extract_bare {s : Radio.Sorts} (hb : ComparesOnly s) {p : ℝ} (hp : p = 0 ∨ p = 1) (cfg : Radio.BufferCfg) (b : Radio.BufferState)
    (last : Int) :
    (Radio.extractMeasurements s cfg (bareBuf p b) last).1.map (bare p) = (Radio.extractMeasurements s cfg b last).1.map (bare p) ∧
      (Radio.extractMeasurements s cfg (bareBuf p b) last).2 = bareBuf p (Radio.extractMeasurements s cfg b last).2 := by
  have hid : ∀ l, s.byId (l.map (bareMsr p)) = (s.byId l).map (bareMsr p) := hb.byId (bare p) (fun _ => rfl)
  have hts : ∀ l, s.byTs (l.map (bareMsr p)) = (s.byTs l).map (bareMsr p) := hb.byTs (bare p)
  have ha : ∀ l, (Radio.averageLoop (l.map (bareMsr p))).map (bare p) = (Radio.averageLoop l).map (bare p) := by
    intro l
    rw [average_bare, List.map_map]
    congr 1
    funext m
    exact bare_twice hp m
  have key : ∀ b : Radio.BufferState, ∀ b' : Radio.BufferState, b' = bareBuf p b →
      ((if b'.currentTs - b'.lastExtractionTs < cfg.shiftMs then ([], b')
        else
          let b2 := { b' with lastExtractionTs := b'.currentTs, measurements := s.byId b'.measurements }
          let out := Radio.averageLoop b2.measurements
          if cfg.useStops && decide (b2.lastStepTs > 0) && decide (b2.currentTs - b2.lastStepTs > cfg.stopMs) then (out, b2)
          else if cfg.keepMs = 0 then (out, { b2 with measurements := [] })
          else
            let keepFromTs := b2.currentTs - cfg.keepMs
            (out, { b2 with measurements := (s.byTs b2.measurements).dropWhile (fun rm => !decide (rm.ts ≥ keepFromTs)) }) :
              List RadioData × Radio.BufferState).1.map (bare p) =
        (if b.currentTs - b.lastExtractionTs < cfg.shiftMs then ([], b)
        else
          let b2 := { b with lastExtractionTs := b.currentTs, measurements := s.byId b.measurements }
          let out := Radio.averageLoop b2.measurements
          if cfg.useStops && decide (b2.lastStepTs > 0) && decide (b2.currentTs - b2.lastStepTs > cfg.stopMs) then (out, b2)
          else if cfg.keepMs = 0 then (out, { b2 with measurements := [] })
          else
            let keepFromTs := b2.currentTs - cfg.keepMs
            (out, { b2 with measurements := (s.byTs b2.measurements).dropWhile (fun rm => !decide (rm.ts ≥ keepFromTs)) }) :
              List RadioData × Radio.BufferState).1.map (bare p)) ∧
      (if b'.currentTs - b'.lastExtractionTs < cfg.shiftMs then ([], b')
        else
          let b2 := { b' with lastExtractionTs := b'.currentTs, measurements := s.byId b'.measurements }
          let out := Radio.averageLoop b2.measurements
          if cfg.useStops && decide (b2.lastStepTs > 0) && decide (b2.currentTs - b2.lastStepTs > cfg.stopMs) then (out, b2)
          else if cfg.keepMs = 0 then (out, { b2 with measurements := [] })
          else
            let keepFromTs := b2.currentTs - cfg.keepMs
            (out, { b2 with measurements := (s.byTs b2.measurements).dropWhile (fun rm => !decide (rm.ts ≥ keepFromTs)) }) :
              List RadioData × Radio.BufferState).2 =
        bareBuf p (if b.currentTs - b.lastExtractionTs < cfg.shiftMs then ([], b)
        else
          let b2 := { b with lastExtractionTs := b.currentTs, measurements := s.byId b.measurements }
          let out := Radio.averageLoop b2.measurements
          if cfg.useStops && decide (b2.lastStepTs > 0) && decide (b2.currentTs - b2.lastStepTs > cfg.stopMs) then (out, b2)
          else if cfg.keepMs = 0 then (out, { b2 with measurements := [] })
          else
            let keepFromTs := b2.currentTs - cfg.keepMs
            (out, { b2 with measurements := (s.byTs b2.measurements).dropWhile (fun rm => !decide (rm.ts ≥ keepFromTs)) }) :
              List RadioData × Radio.BufferState).2 := by
    rintro b _ rfl
    simp only [bareBuf, hid, hts]
    split_ifs <;> first
      | contradiction
      | exact ⟨rfl, rfl⟩
      | exact ⟨ha _, rfl⟩
      | (refine ⟨ha _, ?_⟩
         rw [List.dropWhile_map]
         rfl)
  unfold Radio.extractMeasurements
  refine key (if last > 0 then { b with lastStepTs := last } else b) _ ?_
  split_ifs <;> rfl

/-- The same signals but for what does not matter. -/
def Alike (p : ℝ) (x y : List RadioData) : Prop := y.map (bare p) = x.map (bare p)

theorem closest_bare {s : Radio.Sorts} (hb : ComparesOnly s) {p : ℝ} (cfg : Radio.Cfg) {x y : List RadioData} (h : Alike p x y) :
    Alike p (Radio.closestAps s cfg x) (Radio.closestAps s cfg y) := by
  have hr : ∀ l, s.byRssi (l.map (bare p)) = (s.byRssi l).map (bare p) := hb.byRssi (bare p) (fun _ => rfl)
  have e : ∀ l, (Radio.closestAps s cfg l).map (bare p) = Radio.closestAps s cfg (l.map (bare p)) := by
    intro l
    unfold Radio.closestAps
    split_ifs with h
    · simp only [← List.map_reverse, hr, List.length_map]
      split_ifs
      · rw [List.map_take]
      · rfl
    · rfl
  unfold Alike at *
  rw [e, e, h]

theorem distance_bare (p : ℝ) (cfg : Radio.Cfg) {u v : RadioData} (h : bare p v = bare p u) :
    Both (fun x y => bare p y = bare p x) (Radio.withDistance cfg u) (Radio.withDistance cfg v) := by
  have e1 : (bare p v).type = (bare p u).type := by rw [h]
  have e2 : (bare p v).id = (bare p u).id := by rw [h]
  have e3 : (bare p v).rssi = (bare p u).rssi := by rw [h]
  have e4 : (bare p v).power = (bare p u).power := by rw [h]
  change v.type = u.type at e1
  change v.id = u.id at e2
  change v.rssi = u.rssi at e3
  change p * v.power = p * u.power at e4
  unfold Radio.withDistance
  rw [e1, e2, e3]
  split
  · split
    · exact .inr ⟨_, _, rfl, rfl, h⟩
    · split
      · exact .inl ⟨rfl, rfl⟩
      · split
        · exact .inl ⟨rfl, rfl⟩
        · exact .inr ⟨_, _, rfl, rfl, by unfold bare; dsimp only; rw [e4]⟩
  · exact .inr ⟨_, _, rfl, rfl, by unfold bare; dsimp only; rw [e4]⟩

theorem distances_bare (p : ℝ) (cfg : Radio.Cfg) {x y : List RadioData} (h : Alike p x y) :
    Both (Alike p) (x.mapM (Radio.withDistance cfg)) (y.mapM (Radio.withDistance cfg)) := by
  induction x generalizing y with
  | nil =>
    cases y with
    | nil => exact .inr ⟨[], [], rfl, rfl, rfl⟩
    | cons v y => cases h
  | cons u x ih =>
    cases y with
    | nil => cases h
    | cons v y =>
      unfold Alike at h
      rw [List.map_cons, List.map_cons] at h
      obtain ⟨h1, h2⟩ := List.cons.inj h
      rw [List.mapM_cons, List.mapM_cons]
      rcases distance_bare p cfg h1 with ⟨e1, e2⟩ | ⟨a, b, e1, e2, e3⟩
      · rw [e1, e2]
        exact .inl ⟨rfl, rfl⟩
      · rcases ih h2 with ⟨f1, f2⟩ | ⟨c, d, f1, f2, f3⟩
        · rw [e1, e2, f1, f2]
          exact .inl ⟨rfl, rfl⟩
        · rw [e1, e2, f1, f2]
          refine .inr ⟨_, _, rfl, rfl, ?_⟩
          unfold Alike at f3 ⊢
          rw [List.map_cons, List.map_cons, e3, f3]

/-! ## Sensors -/

theorem pedometer_bare (cs : CommonSettings) (s : Pedo.PedoState) (m : SensorMeasurement) :
    Pedo.update s ⟨bareSensor cs m.data, m.ts⟩ = Pedo.update s m := by
  obtain ⟨⟨t, v⟩, ts⟩ := m
  cases t <;> rfl

theorem filter_sensor (cs : CommonSettings) (c : Fusion.CfConfig) (s : Fusion.CfState) (m : SensorMeasurement) :
    Fusion.cfUpdate c s ⟨bareSensor cs m.data, m.ts⟩ = Fusion.cfUpdate c s m := by
  obtain ⟨⟨t, v⟩, ts⟩ := m
  cases t <;> rfl

theorem displacement_bare (cs : CommonSettings) (c : Fusion.FusionConfig) (s : Fusion.FusionState) (m : SensorMeasurement) (t : Int) :
    Fusion.calculateDisplacement c s ⟨bareSensor cs m.data, m.ts⟩ t = Fusion.calculateDisplacement c s m t := by
  unfold Fusion.calculateDisplacement
  rw [pedometer_bare, filter_sensor]

theorem floor_bare (cs : CommonSettings) (e : LevelEst.Estimator) (l : String) (m : SensorMeasurement) :
    LevelEst.calculateLevel cs.useBarometer e l ⟨bareSensor cs m.data, m.ts⟩ = LevelEst.calculateLevel cs.useBarometer e l m := by
  cases hb : cs.useBarometer with
  | false => rfl
  | true =>
    have e : ∀ b, LevelEst.updateBuffers b ⟨bareSensor cs m.data, m.ts⟩ = LevelEst.updateBuffers b m := by
      intro b
      obtain ⟨⟨t, v⟩, ts⟩ := m
      cases t <;> first | rfl | simp [LevelEst.updateBuffers, bareSensor, hb]
    unfold LevelEst.calculateLevel LevelEst.checkLevelChange
    simp only [e]

theorem gps_bare (cs cs' : CommonSettings) (c : LevelCollector) (st : Estim.OutdoorState) (ts : Int) (m : SensorMeasurement)
    (n : NmeaMeasurement) (f : Bool) :
    Estim.outdoorPosition cs' c st ts ⟨bareSensor cs m.data, m.ts⟩ ⟨bareNmea n.data, n.ts⟩ f = Estim.outdoorPosition cs' c st ts m n f := by
  have e1 : Estim.extractGpsPosition cs' ts ⟨bareSensor cs m.data, m.ts⟩ = Estim.extractGpsPosition cs' ts m := by
    obtain ⟨⟨t, v⟩, u⟩ := m
    cases t <;> rfl
  have e2 : Estim.extractNumberOfSatellites ⟨bareNmea n.data, n.ts⟩ = Estim.extractNumberOfSatellites n := by
    unfold Estim.extractNumberOfSatellites bareNmea satellites
    by_cases h1 : n.data.sentenceNumber = 1
    · simp [h1]
    · simp [h1]
  unfold Estim.outdoorPosition
  rw [e1, e2]

end Verif.Unread
