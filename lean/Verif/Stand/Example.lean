import Verif.Stand.Walk
import Verif.Stand.Props
import Verif.Stand.AnswerProps

/-!
# C135, C136: a room with two beacons
-/

namespace Verif.Stand

open Verif.Levels Verif.Nav Verif.Floors Verif.Footprint
open Verif.Geo (XYPoint)
open Verif.Knn (Result)
open Verif.Mixed (zoneFix zoneFix_eq ZoneLaw zoneRadius)

/-- A room of twenty metres with a beacon at the height `F` and one at the height `B` of its western side. -/
noncomputable def room (F B : ℝ) : Level :=
  Level.addTransmitters ⟨"A", ⟨0, 0⟩, [], mkRadiomap [], ⟨[], ⟨⟨0, 0⟩, ⟨20, 20⟩⟩, []⟩, NavGraph.empty⟩
    [⟨"tx", ⟨0, F, 0⟩, ⟨-59, 10, 0⟩, .BEACON⟩, ⟨"ty", ⟨0, B, 0⟩, ⟨-59, 10, 0⟩, .BEACON⟩]

/-- Default settings with stops, without smoothing, with windows of half a second. -/
noncomputable def roomSettings : CommonSettings := { useStops := true, useSmoothing := false, sigAveragingTime := 1 / 2 }

noncomputable def roomCfg (F B : ℝ) : Cfg where
  env := exEnv
  cs := roomSettings
  levels := collect [room F B]
  noSignal := 35000
  noAction := 20000
  detector := .transmitters false
  indoor := .zone [("A", -59)] [("A", 10)]
  pre := Radio.mkCfg (collect [room F B]) roomSettings
  fusion := Fusion.fusionConfig roomSettings

theorem roomClient (F B : ℝ) : Client [room F B] (roomCfg F B) where
  map := by
    refine ⟨by simp, ?_, ?_, ?_⟩ <;> intro l hl <;> rw [List.mem_singleton] at hl <;> rw [hl]
    · simp [room, Level.addTransmitters]
    · rfl
    · exact ⟨[], rfl⟩
  settings := ⟨fun h => (by cases h), fun h => (by cases h)⟩
  sort := sortsBy_insertionSort _
  radioSorts := Radio.insertionSorts_lawful
  built := by
    refine ⟨[("A", ⟨-59, 10⟩)], ?_⟩
    have hz : Estim.zoneParams [("A", ⟨-59, 10⟩)] (collect [room F B]) = some ([("A", -59)], [("A", 10)]) := by
      simp [Estim.zoneParams, collect_levels, room, Level.addTransmitters, List.foldlM, StdMap.find?, StdMap.set,
        StdMap.insertSorted]
    unfold mkCfg createPositionEstimator
    rw [if_neg (by simp [roomCfg, roomSettings]), hz]
    simp [roomCfg, roomSettings, createLevelEstimator]

theorem room_txs (F B : ℝ) : (room F B).transmitters =
    [("tx", ⟨"tx", ⟨0, F, 0⟩, ⟨-59, 10, 0⟩, .BEACON⟩), ("ty", ⟨"ty", ⟨0, B, 0⟩, ⟨-59, 10, 0⟩, .BEACON⟩)] := by
  have hyx : ¬ ("ty" < "tx") := not_lt.mpr (le_of_lt (String.lt_iff_toList_lt.mpr (by decide)))
  simp [room, Level.addTransmitters, StdMap.insert, StdMap.insertSorted, StdMap.find?]
  simpa using hyx

theorem room_tx (F B : ℝ) : (room F B).transmitter "tx" = some ⟨"tx", ⟨0, F, 0⟩, ⟨-59, 10, 0⟩, .BEACON⟩ := by
  unfold Level.transmitter; rw [room_txs]; simp [StdMap.find?]

theorem room_ty (F B : ℝ) : (room F B).transmitter "ty" = some ⟨"ty", ⟨0, B, 0⟩, ⟨-59, 10, 0⟩, .BEACON⟩ := by
  unfold Level.transmitter; rw [room_txs]; simp [StdMap.find?]

theorem room_admitted (F B : ℝ) {id : String} (h : id = "tx" ∨ id = "ty") :
    Radio.Admissible [room F B] roomSettings ⟨.BEACON, id, -70, 0, 0, 0⟩ := by
  refine ⟨?_, ?_, ?_, ?_⟩
  · simp [Radio.TypeEnabled, roomSettings]
  · intro _; simp [roomSettings]; norm_num
  · intro h; exact absurd rfl h
  · right
    rcases h with rfl | rfl
    · exact ⟨⟨"tx", ⟨0, F, 0⟩, ⟨-59, 10, 0⟩, .BEACON⟩, ⟨room F B, by simp [Level.containsTransmitter, room_txs, StdMap.find?], by rw [room_txs]; simp, room_tx F B⟩, by simp [roomSettings]⟩
    · exact ⟨⟨"ty", ⟨0, B, 0⟩, ⟨-59, 10, 0⟩, .BEACON⟩, ⟨room F B, by simp [Level.containsTransmitter, room_txs, StdMap.find?], by rw [room_txs]; simp, room_ty F B⟩, by simp [roomSettings]⟩

theorem room_span : spanOf roomSettings = 500 := by
  have : (1 / 2 : ℝ) * 1000 = ((500 : ℤ) : ℝ) := by norm_num
  simp only [spanOf, roomSettings]
  first
  | rw [this, Int.floor_intCast]
  | norm_num

theorem room_stopZones : StopZones roomSettings where
  toByZones := by constructor <;> simp [roomSettings] <;> norm_num
  shift := by simp [roomSettings]
  span := by simp [roomSettings]; norm_num
  closest := rfl
  timeSmoothing := rfl
  smoothing := rfl
  stops := rfl
  graph := rfl
  outside := rfl
  reckoning := by simp [roomSettings]
  noSignal := by simp [roomSettings]
  noAction := by simp [roomSettings]
  barometer := rfl
  detection := by simp [roomSettings]
  update := by simp [roomSettings]

theorem room_stops : Stops roomSettings where
  stops := rfl
  graph := rfl
  barometer := rfl
  noAction := by simp [roomSettings]
  detection := by simp [roomSettings]
  update := by simp [roomSettings]

theorem room_law (F B : ℝ) : ZoneLaw (roomCfg F B) (room F B) (-59) 10 :=
  ⟨_, _, rfl, by simp [StdMap.find?, room, Level.addTransmitters], by simp [StdMap.find?, room, Level.addTransmitters], by norm_num⟩

theorem ms_detection : ⌊1000 * roomSettings.stopDetectionTime⌋ = 3000 := by
  have : (1000 : ℝ) * roomSettings.stopDetectionTime = ((3000 : ℤ) : ℝ) := by simp [roomSettings]; norm_num
  rw [this, Int.floor_intCast]

theorem ms_update : ⌊1000 * roomSettings.stopUpdateTime⌋ = 4000 := by
  have : (1000 : ℝ) * roomSettings.stopUpdateTime = ((4000 : ℤ) : ℝ) := by simp [roomSettings]; norm_num
  rw [this, Int.floor_intCast]

theorem ms_reckoning : ⌊1000 * roomSettings.deadReckoningTime⌋ = 5000 := by
  have : (1000 : ℝ) * roomSettings.deadReckoningTime = ((5000 : ℤ) : ℝ) := by simp [roomSettings]; norm_num
  rw [this, Int.floor_intCast]

theorem fresh_ms (now t : Int) : (now < t + 1000 * roomSettings.noSignalTimeThreshold) ↔ now < t + 35000 := by
  simp [roomSettings]

/-! ## The memory of the visit -/

/-- After the first two signals: the zone of the first beacon. -/
noncomputable def seated (F : ℝ) (step counted : Option Int) (spot : XYPoint) (radius : Option ℝ) (answer : Option (XYPoint × ℝ)) :
    Memory :=
  ⟨⟨some 700, [], some (700, [heardSig "tx" 100, heardSig "tx" 700])⟩, some 700, step, counted, some ⟨⟨0, F⟩, zoneRadius, 700⟩, spot,
    radius, 0, answer⟩

theorem not_stopped_none (now : Int) : ¬ Stopped roomSettings none now := by
  rintro ⟨t, ht, -⟩; cases ht

theorem stopped_iff (t now : Int) : Stopped roomSettings (some t) now ↔ 3000 ≤ now - t := by
  unfold Stopped
  rw [ms_detection]
  simp

theorem resting_iff (t now : Int) : Resting roomSettings (some t) now ↔ 3000 < now - t := by
  unfold Resting
  rw [ms_detection]
  simp

theorem not_resting_none (now : Int) : ¬ Resting roomSettings none now := by
  rintro ⟨t, ht, -⟩; cases ht

theorem covers_iff (F B : ℝ) (y : ℝ) : Estim.Box.Covers (room F B).geometry.boundingBox ⟨0, y⟩ ↔ 0 ≤ y ∧ y ≤ 20 := by
  simp [Estim.Box.Covers, room, Level.addTransmitters]

theorem usable_iff (F B y r : ℝ) (t now : Int) : Usable (room F B) roomSettings ⟨⟨0, y⟩, r, t⟩ now ↔ (0 ≤ y ∧ y ≤ 20) ∧ now - t < 5000 := by
  unfold Usable
  rw [covers_iff, ms_reckoning]

theorem settle_y (F B : ℝ) (n : ℕ) (h : n ≤ 20) : settle (room F B) ⟨0, n⟩ = ⟨0, n⟩ := by
  have h1 : (n : ℝ) ≤ 20 := by exact_mod_cast h
  have h0 : (0 : ℝ) ≤ n := Nat.cast_nonneg n
  have e : ((n : ℝ) * 100) = ((n * 100 : ℤ) : ℝ) := by push_cast; ring
  simp only [settle, room, Level.addTransmitters, max_self, XYPoint.mk.injEq, downToCm]
  rw [max_eq_left h0, min_eq_left h1, e, Int.floor_intCast]
  refine ⟨by norm_num, by push_cast; ring⟩

theorem in_use_seated (F : ℝ) (st ct : Option Int) (sp : XYPoint) (ra : Option ℝ) (an : Option (XYPoint × ℝ)) {now : Int}
    (h : now < 35700) : (seated F st ct sp ra an).InUse roomSettings now :=
  ⟨by simp [seated], 700, rfl, (fresh_ms now 700).mpr (by omega)⟩

theorem sense_sensor (F B : ℝ) (v : Memory) (d : SensorData) (t : Int) (x : Bool) :
    v.sense (room F B) roomSettings ⟨.sensor d, t⟩ x = { v with step := if x then some t else v.step } := by
  unfold Memory.sense
  rw [if_neg Mixed.sensor_not_heard]
  rfl

/-- A sensor message while the first zone is the last one. -/
theorem after_sensor (F B : ℝ) (st ct : Option Int) (sp : XYPoint) (ra : Option ℝ) (an : Option (XYPoint × ℝ)) (d : SensorData)
    {t : Int} (x : Bool) (h : t < 35700) :
    (seated F st ct sp ra an).after (room F B) roomSettings (-59) 10 ⟨.sensor d, t⟩ x =
      (seated F (if x then some t else st) (if x then some t else ct) sp ra an).display (room F B) roomSettings t := by
  unfold Memory.after
  dsimp only
  rw [sense_sensor]
  have e : ({ seated F st ct sp ra an with step := if x then some t else (seated F st ct sp ra an).step } : Memory) =
      seated F (if x then some t else st) ct sp ra an := rfl
  rw [e, if_pos (in_use_seated _ _ _ _ _ _ h)]
  have hcl : ¬ (seated F st ct sp ra an).Closes (room F B) roomSettings ⟨.sensor d, t⟩ := fun hc => Mixed.sensor_not_heard hc.1
  simp only [Memory.count, hcl, if_false]
  rfl

theorem display_in (F B : ℝ) (hF : 0 ≤ F ∧ F ≤ 20) (st ct : Option Int) (sp : XYPoint) (ra : Option ℝ) (an : Option (XYPoint × ℝ))
    {t : Int} (h : t < 5700) (hs : ¬ Stopped roomSettings ct t) :
    (seated F st ct sp ra an).display (room F B) roomSettings t =
      seated F st ct (settle (room F B) ⟨0, F⟩) (some zoneRadius) (some (settle (room F B) ⟨0, F⟩, zoneRadius)) := by
  unfold Memory.display seated
  dsimp only
  rw [if_neg (by rw [not_not, usable_iff]; exact ⟨hF, by omega⟩), if_neg (fun h => hs h.1), if_neg hs]

theorem display_out (F B : ℝ) (hF : ¬ (0 ≤ F ∧ F ≤ 20)) (st ct : Option Int) (sp : XYPoint) (ra : Option ℝ) (an : Option (XYPoint × ℝ))
    (t : Int) : (seated F st ct sp ra an).display (room F B) roomSettings t = seated F st ct sp ra none := by
  unfold Memory.display seated
  dsimp only
  rw [if_pos (by rw [usable_iff]; exact fun h => hF h.1)]

theorem same_only (t1 t2 : Int) : Strongest [heardSig "tx" t1, heardSig "tx" t2] "tx" :=
  Track.strongest_only (by simp) (by intro m hm; simp only [List.mem_cons, List.not_mem_nil, or_false] at hm; rcases hm with rfl | rfl <;> rfl)

theorem first_zone (F B : ℝ) : zoneFix (room F B) (-59) 10 700 [heardSig "tx" 100, heardSig "tx" 700] = some ⟨⟨0, F⟩, zoneRadius, 700⟩ := by
  rw [zoneFix_eq (same_only 100 700) (room_tx F B)]
  have : meanRssi [heardSig "tx" 100, heardSig "tx" 700] "tx" = -70 := by
    simp [meanRssi, Radio.ofTransmitter, Radio.mean, heardSig]
  rw [this]
  simp only [zoneRadius]
  norm_num

theorem second_zone (F B : ℝ) : zoneFix (room F B) (-59) 10 12800 [heardSig "ty" 12800] = some ⟨⟨0, B⟩, zoneRadius, 12800⟩ := by
  have hst : Strongest [heardSig "ty" 12800] "ty" :=
    Track.strongest_only (by simp) (by intro m hm; simp only [List.mem_cons, List.not_mem_nil, or_false] at hm; rw [hm]; rfl)
  rw [zoneFix_eq hst (room_ty F B)]
  have : meanRssi [heardSig "ty" 12800] "ty" = -70 := by
    simp [meanRssi, Radio.ofTransmitter, Radio.mean, heardSig]
  rw [this]
  simp only [zoneRadius]
  norm_num

/-- During the stop the signal of the second beacon stays in the window; both are equally strong, and the first identifier wins. -/
theorem third_zone (F B : ℝ) : zoneFix (room F B) (-59) 10 17000 [heardSig "ty" 12800, heardSig "tx" 17000] =
    some ⟨⟨0, F⟩, zoneRadius, 17000⟩ := by
  have e1 : meanRssi [heardSig "ty" 12800, heardSig "tx" 17000] "tx" = -70 := by
    simp [meanRssi, Radio.ofTransmitter, Radio.mean, heardSig]
  have e2 : meanRssi [heardSig "ty" 12800, heardSig "tx" 17000] "ty" = -70 := by
    simp [meanRssi, Radio.ofTransmitter, Radio.mean, heardSig]
  have hst : Strongest [heardSig "ty" 12800, heardSig "tx" 17000] "tx" := by
    refine ⟨⟨heardSig "tx" 17000, by simp, rfl⟩, fun m hm => .inr ?_⟩
    simp only [List.mem_cons, List.not_mem_nil, or_false] at hm
    rcases hm with rfl | rfl
    · exact ⟨by change meanRssi _ "ty" = _; rw [e1, e2], le_of_lt (String.lt_iff_toList_lt.mpr (by decide))⟩
    · exact ⟨rfl, le_refl _⟩
  rw [zoneFix_eq hst (room_tx F B), e1]
  simp only [zoneRadius]
  norm_num

theorem sig_heard (F B : ℝ) {id : String} (h : id = "tx" ∨ id = "ty") (t : Int) : Heard [room F B] roomSettings (sig id t) :=
  ⟨_, rfl, room_admitted F B h⟩

/-- A signal that closes a window. -/
theorem after_closes (F B : ℝ) (v : Memory) {id : String} (hid : id = "tx" ∨ id = "ty") {t : Int} {t0 : Int} (ho : v.win.opened = some t0)
    (ht : 500 ≤ t - t0) :
    v.after (room F B) roomSettings (-59) 10 (sig id t) false =
      ({ v with
        heard := some t
        win := ⟨some t, open Classical in if Resting roomSettings v.step t then v.win.pending ++ [heardSig id t] else [],
          some (t, v.win.pending ++ [heardSig id t])⟩
        zone := zoneFix (room F B) (-59) 10 t (v.win.pending ++ [heardSig id t]) } : Memory).display (room F B) roomSettings t := by
  have hs : v.sense (room F B) roomSettings (sig id t) false = { v with
        heard := some t
        win := ⟨some t, open Classical in if Resting roomSettings v.step t then v.win.pending ++ [heardSig id t] else [],
          some (t, v.win.pending ++ [heardSig id t])⟩ } := by
    unfold Memory.sense
    rw [if_pos (sig_heard F B hid t)]
    simp only [Bool.false_eq_true, if_false, sig, takeOn]
    rw [if_pos (room_admitted F B hid)]
    unfold hearOn
    rw [if_pos (by rw [room_span, ho]; exact ht)]
    by_cases hr : Resting roomSettings v.step t <;> simp [heardSig, hr]
  have hcl : v.Closes (room F B) roomSettings (sig id t) := ⟨sig_heard F B hid t, by rw [room_span, ho]; exact ht⟩
  unfold Memory.after
  dsimp only
  rw [hs, if_pos ⟨by simp, t, rfl, (fresh_ms t t).mpr (by omega)⟩]
  simp only [Memory.count, hcl, if_true, Bool.false_eq_true, if_false, Option.bind_some]
  rfl

theorem after_one (F B : ℝ) : Memory.start.after (room F B) roomSettings (-59) 10 (pressureAt 50) false = Memory.start := by
  unfold Memory.after pressureAt
  dsimp only
  rw [sense_sensor, if_neg (fun h => h.1 rfl)]
  rfl

/-- After the first signal. -/
noncomputable def opened : Memory := { Memory.start with win := ⟨some 100, [heardSig "tx" 100], none⟩, heard := some 100 }

theorem after_two (F B : ℝ) : Memory.start.after (room F B) roomSettings (-59) 10 (sig "tx" 100) false = opened := by
  have hs : Memory.start.sense (room F B) roomSettings (sig "tx" 100) false = opened := by
    unfold Memory.sense
    rw [if_pos (sig_heard F B (.inl rfl) 100)]
    simp only [Bool.false_eq_true, if_false, sig, takeOn]
    rw [if_pos (room_admitted F B (.inl rfl))]
    unfold hearOn
    rw [if_neg (by rw [room_span]; simp [Memory.start])]
    rfl
  unfold Memory.after
  dsimp only
  rw [hs, if_neg (fun h => h.1 rfl)]

theorem after_three (F B : ℝ) : opened.after (room F B) roomSettings (-59) 10 (sig "tx" 700) false =
    (seated F none none ⟨0, 0⟩ none none).display (room F B) roomSettings 700 := by
  rw [after_closes F B opened (.inl rfl) (t0 := 100) rfl (by norm_num)]
  rw [if_neg (show ¬ Resting roomSettings opened.step 700 from not_resting_none 700)]
  have : (opened.win.pending ++ [heardSig "tx" 700]) = [heardSig "tx" 100, heardSig "tx" 700] := rfl
  rw [this, first_zone]
  rfl

/-- The place, radius and answer of the first part of the visit. -/
structure Sits (F B : ℝ) (sp : XYPoint) (ra : Option ℝ) (an : Option (XYPoint × ℝ)) : Prop where
  first : (seated F none none ⟨0, 0⟩ none none).display (room F B) roomSettings 700 = seated F none none sp ra an
  again : ∀ st ct (t : Int), t < 5700 → ¬ Stopped roomSettings ct t →
    (seated F st ct sp ra an).display (room F B) roomSettings t = seated F st ct sp ra an

theorem sits_in (F B : ℝ) (hF : 0 ≤ F ∧ F ≤ 20) :
    Sits F B (settle (room F B) ⟨0, F⟩) (some zoneRadius) (some (settle (room F B) ⟨0, F⟩, zoneRadius)) :=
  ⟨display_in F B hF _ _ _ _ _ (by norm_num) (not_stopped_none _), fun st ct _ h1 h2 => display_in F B hF st ct _ _ _ h1 h2⟩

theorem sits_out (F B : ℝ) (hF : ¬ (0 ≤ F ∧ F ≤ 20)) : Sits F B ⟨0, 0⟩ none none :=
  ⟨display_out F B hF _ _ _ _ _ _, fun st ct t _ _ => display_out F B hF st ct _ _ _ t⟩

/-- The memory before each message of the visit. -/
noncomputable def before (F B : ℝ) (k : ℕ) : Memory :=
  memory (room F B) roomSettings (-59) 10 (visit.take k) ([false, false, false, false, false, false, true, false, false, false].take k)

theorem before_three (F B : ℝ) {sp : XYPoint} {ra : Option ℝ} {an : Option (XYPoint × ℝ)} (h : Sits F B sp ra an) :
    before F B 3 = seated F none none sp ra an := by
  have : before F B 3 = (((Memory.start.after (room F B) roomSettings (-59) 10 (pressureAt 50) false).after (room F B) roomSettings (-59) 10
      (sig "tx" 100) false).after (room F B) roomSettings (-59) 10 (sig "tx" 700) false) := rfl
  rw [this, after_one, after_two, after_three, h.first]

theorem quiet (F B : ℝ) {sp : XYPoint} {ra : Option ℝ} {an : Option (XYPoint × ℝ)} (h : Sits F B sp ra an) (st ct : Option Int)
    (d : SensorData) (t : Int) (ht : t < 5700) (hs : ¬ Stopped roomSettings ct t) :
    (seated F st ct sp ra an).after (room F B) roomSettings (-59) 10 ⟨.sensor d, t⟩ false = seated F st ct sp ra an := by
  rw [after_sensor F B st ct sp ra an d false (by omega)]
  exact h.again st ct t ht hs

theorem before_six (F B : ℝ) {sp : XYPoint} {ra : Option ℝ} {an : Option (XYPoint × ℝ)} (h : Sits F B sp ra an) :
    before F B 4 = seated F none none sp ra an ∧ before F B 5 = seated F none none sp ra an ∧
      before F B 6 = seated F none none sp ra an := by
  have e4 : before F B 4 = seated F none none sp ra an := by
    have : before F B 4 = (before F B 3).after (room F B) roomSettings (-59) 10 (accMessage 1000 0) false := rfl
    rw [this, before_three F B h]
    exact quiet F B h none none _ 1000 (by norm_num) (not_stopped_none _)
  have e5 : before F B 5 = seated F none none sp ra an := by
    have : before F B 5 = (before F B 4).after (room F B) roomSettings (-59) 10 (accMessage 1250 0) false := rfl
    rw [this, e4]
    exact quiet F B h none none _ 1250 (by norm_num) (not_stopped_none _)
  have e6 : before F B 6 = seated F none none sp ra an := by
    have : before F B 6 = (before F B 5).after (room F B) roomSettings (-59) 10 (accMessage 1500 0) false := rfl
    rw [this, e5]
    exact quiet F B h none none _ 1500 (by norm_num) (not_stopped_none _)
  exact ⟨e4, e5, e6⟩

theorem before_eight (F B : ℝ) {sp : XYPoint} {ra : Option ℝ} {an : Option (XYPoint × ℝ)} (h : Sits F B sp ra an) :
    before F B 7 = seated F (some 1750) (some 1750) sp ra an ∧ before F B 8 = seated F (some 1750) (some 1750) sp ra an := by
  have e7 : before F B 7 = seated F (some 1750) (some 1750) sp ra an := by
    have : before F B 7 = (before F B 6).after (room F B) roomSettings (-59) 10 (accMessage 1750 10) true := rfl
    rw [this, (before_six F B h).2.2]
    unfold accMessage
    rw [after_sensor F B _ _ _ _ _ _ true (by norm_num)]
    exact h.again (some 1750) (some 1750) _ (by norm_num) (by rw [stopped_iff]; norm_num)
  refine ⟨e7, ?_⟩
  have : before F B 8 = (before F B 7).after (room F B) roomSettings (-59) 10 (pressureAt 1751) false := rfl
  rw [this, e7]
  exact quiet F B h _ _ _ 1751 (by norm_num) (by rw [stopped_iff]; norm_num)

/-- The memory when the second beacon is heard, before it is decided what is shown. -/
noncomputable def later (B : ℝ) (sp : XYPoint) (ra : Option ℝ) (an : Option (XYPoint × ℝ)) : Memory :=
  ⟨⟨some 12800, [heardSig "ty" 12800], some (12800, [heardSig "ty" 12800])⟩, some 12800, some 1750, some 1750,
    some ⟨⟨0, B⟩, zoneRadius, 12800⟩, sp, ra, 0, an⟩

theorem before_nine (F B : ℝ) {sp : XYPoint} {ra : Option ℝ} {an : Option (XYPoint × ℝ)} (h : Sits F B sp ra an) :
    before F B 9 = (later B sp ra an).display (room F B) roomSettings 12800 := by
  have : before F B 9 = (before F B 8).after (room F B) roomSettings (-59) 10 (sig "ty" 12800) false := rfl
  rw [this, (before_eight F B h).2, after_closes F B _ (.inr rfl) (t0 := 700) rfl (by norm_num)]
  rw [if_pos (show Resting roomSettings (seated F (some 1750) (some 1750) sp ra an).step 12800 from (resting_iff 1750 12800).mpr (by norm_num))]
  have e : (seated F (some 1750) (some 1750) sp ra an).win.pending ++ [heardSig "ty" 12800] = [heardSig "ty" 12800] := rfl
  rw [e, second_zone]
  rfl

theorem display_renew {lv : Level} {cs : CommonSettings} {v : Memory} {z : Mixed.Fix} {now : Int} (hz : v.zone = some z)
    (hu : Usable lv cs z now) (hs : Stopped cs v.counted now) (hr : Renews cs v z now) :
    v.display lv cs now = { v with
      spot := settle lv z.place
      radius := some z.radius
      renewed := now
      answer := some (settle lv z.place, z.radius) } := by
  simp only [Memory.display, hz, hu, hs, hr, not_true_eq_false, and_false, if_false, if_true]

theorem display_hold {lv : Level} {cs : CommonSettings} {v : Memory} {z : Mixed.Fix} {now : Int} (hz : v.zone = some z)
    (hu : Usable lv cs z now) (hs : Stopped cs v.counted now) (hr : ¬ Renews cs v z now) :
    v.display lv cs now = { v with
      spot := settle lv v.spot
      answer := v.radius.map (fun r => (settle lv v.spot, r)) } := by
  simp only [Memory.display, hz, hu, hs, hr, not_true_eq_false, not_false_eq_true, and_true, if_false, if_true]

/-- The second beacon is near: the place is renewed. -/
theorem nine_near (F B : ℝ) (hB : 0 ≤ B ∧ B ≤ 20) {sp : XYPoint} {ra : Option ℝ} {an : Option (XYPoint × ℝ)}
    (hd : Geometry.getDist sp.x sp.y 0 B < 10) :
    (later B sp ra an).display (room F B) roomSettings 12800 =
      { later B sp ra an with
        spot := settle (room F B) ⟨0, B⟩
        radius := some zoneRadius
        renewed := 12800
        answer := some (settle (room F B) ⟨0, B⟩, zoneRadius) } := by
  have hs : Stopped roomSettings (later B sp ra an).counted 12800 := (stopped_iff 1750 12800).mpr (by norm_num)
  have hr : Renews roomSettings (later B sp ra an) ⟨⟨0, B⟩, zoneRadius, 12800⟩ 12800 := by
    refine ⟨by rw [ms_update]; simp [later], ?_⟩
    have : roomSettings.useStopsDistanceThresholdM = 10 := by simp [roomSettings]
    rw [this]; exact hd
  exact display_renew (lv := room F B) (cs := roomSettings) (v := later B sp ra an) (z := ⟨⟨0, B⟩, zoneRadius, 12800⟩) (now := 12800) rfl
    ((usable_iff F B _ _ _ _).mpr ⟨hB, by norm_num⟩) hs hr

/-- The second beacon is far: the place is held. -/
theorem nine_far (F B : ℝ) (hB : 0 ≤ B ∧ B ≤ 20) {sp : XYPoint} {ra : Option ℝ} {an : Option (XYPoint × ℝ)}
    (hd : 10 ≤ Geometry.getDist sp.x sp.y 0 B) :
    (later B sp ra an).display (room F B) roomSettings 12800 =
      { later B sp ra an with
        spot := settle (room F B) sp
        answer := ra.map (fun r => (settle (room F B) sp, r)) } := by
  have hs : Stopped roomSettings (later B sp ra an).counted 12800 := (stopped_iff 1750 12800).mpr (by norm_num)
  have hr : ¬ Renews roomSettings (later B sp ra an) ⟨⟨0, B⟩, zoneRadius, 12800⟩ 12800 := by
    rintro ⟨-, h⟩
    have : roomSettings.useStopsDistanceThresholdM = 10 := by simp [roomSettings]
    rw [this] at h
    exact absurd h (not_lt.mpr hd)
  exact display_hold (lv := room F B) (cs := roomSettings) (v := later B sp ra an) (z := ⟨⟨0, B⟩, zoneRadius, 12800⟩) (now := 12800) rfl
    ((usable_iff F B _ _ _ _).mpr ⟨hB, by norm_num⟩) hs hr

/-- The first beacon is heard again, near as well: the place is renewed again. -/
theorem ten_near (F B : ℝ) (hF : 0 ≤ F ∧ F ≤ 20) {v : Memory} {sp : XYPoint} {ra : Option ℝ} {an : Option (XYPoint × ℝ)} {p : XYPoint}
    (hv : v = { later B sp ra an with spot := p, radius := some zoneRadius, renewed := 12800, answer := some (p, zoneRadius) })
    (hd : Geometry.getDist p.x p.y 0 F < 10) :
    (v.after (room F B) roomSettings (-59) 10 (sig "tx" 17000) false).answer = some (settle (room F B) ⟨0, F⟩, zoneRadius) := by
  rw [after_closes F B v (.inl rfl) (t0 := 12800) (by rw [hv]; rfl) (by norm_num)]
  have e : v.win.pending ++ [heardSig "tx" 17000] = [heardSig "ty" 12800, heardSig "tx" 17000] := by rw [hv]; rfl
  rw [e, third_zone]
  rw [display_renew (z := ⟨⟨0, F⟩, zoneRadius, 17000⟩) rfl ((usable_iff F B _ _ _ _).mpr ⟨hF, by norm_num⟩)]
  · rw [hv]; exact (stopped_iff 1750 17000).mpr (by norm_num)
  · refine ⟨by rw [ms_update, hv]; norm_num, ?_⟩
    have : roomSettings.useStopsDistanceThresholdM = 10 := by simp [roomSettings]
    rw [this, hv]; exact hd

/-! ## The answers -/

theorem visit_taken : taken [visit] = visit := by
  simp only [taken, List.flatMap_cons, List.flatMap_nil, List.append_nil]
  refine records_ordered _ ?_
  simp [Ordered, visit, arrival, pressureAt, sig, accMessage]

theorem visit_times : ∀ e ∈ visit, 0 < e.ts := by
  simp [visit, arrival, pressureAt, sig, accMessage]

theorem visit_noFixes {g : Garbage} (hg : g.sensor.data.type ≠ .LOCATION) : NoFixes g visit := by
  refine ⟨hg, fun m hm d hd => ?_⟩
  simp only [visit, arrival, List.cons_append, List.nil_append, List.mem_cons, List.not_mem_nil, or_false] at hm
  rcases hm with rfl | rfl | rfl | rfl | rfl | rfl | rfl | rfl | rfl | rfl <;>
    simp only [pressureAt, sig, accMessage, MeasurementData.sensor.injEq, reduceCtorEq] at hd <;> rw [← hd] <;> simp [Pedo.acc]

/-- Every message of the visit is answered from the memory before it. -/
theorem visit_answers (F B : ℝ) {g : Garbage} (hg : g.sensor.data.type ≠ .LOCATION) :
    ∃ s o0 o1 o2 o3 o4 o5 o6 o7 o8 o9,
      navigateAll (roomCfg F B) (init (roomCfg F B) g) [visit] = .ok (s, [o0, o1, o2, o3, o4, o5, o6, o7, o8, o9]) ∧
      stepsOf [o0, o1, o2, o3, o4, o5, o6, o7, o8, o9] = [false, false, false, false, false, false, true, false, false, false] ∧
      ∀ k < 10, ∃ m r, visit[k]? = some m ∧ [o0, o1, o2, o3, o4, o5, o6, o7, o8, o9][k]? = some r ∧
        Answers (room F B) roomSettings (-59) 10 (before F B k) m r := by
  obtain ⟨s, outs, h, hl⟩ := C79_total (roomClient F B) g [visit]
  rw [visit_taken] at hl
  have hst : stepsOf outs = _ := visit_steps (c := roomCfg F B) (g := g) (s := s) (outs := outs) (by
    rw [navigateAll_eq, visit_taken] at h; exact h)
  have hk : ∀ k < 10, ∃ m r, visit[k]? = some m ∧ outs[k]? = some r ∧ Answers (room F B) roomSettings (-59) 10 (before F B k) m r := by
    intro k hk
    obtain ⟨m, r, h1, h2, h3⟩ := C136_session (roomClient F B) room_stopZones (room_law F B) g [visit] h
      (by rw [visit_taken]; exact visit_times) (by rw [visit_taken]; exact visit_noFixes hg) k (by rw [visit_taken]; exact hk)
    rw [visit_taken] at h1 h3
    have e : stepsOf (outs.take k) = [false, false, false, false, false, false, true, false, false, false].take k := by
      rw [← hst]; simp [stepsOf, List.map_take]
    rw [e] at h3
    exact ⟨m, r, h1, h2, h3⟩
  match outs, hl with
  | [o0, o1, o2, o3, o4, o5, o6, o7, o8, o9], _ => exact ⟨s, o0, o1, o2, o3, o4, o5, o6, o7, o8, o9, h, hst, hk⟩

theorem room_touch (F B : ℝ) (outs : List (Output × DebugState)) : StaysInTouch [room F B] roomSettings visit outs := by
  intro a m b hab ho
  have hl : a.length < 10 := by
    have := congrArg List.length hab
    simp [visit, arrival] at this
    omega
  have ha : a = visit.take a.length := by rw [hab]; simp
  have hm : visit[a.length]? = some m := by rw [hab]; simp
  have hx := sig_heard F B (id := "tx") (.inl rfl)
  have hy := sig_heard F B (id := "ty") (.inr rfl)
  have hp : ∀ t, ¬ Heard [room F B] roomSettings (pressureAt t) := fun t => Mixed.sensor_not_heard
  have hq : ∀ t v, ¬ Heard [room F B] roomSettings (accMessage t v) := fun t v => Mixed.sensor_not_heard
  have fr := fun now t h => (fresh_ms now t).mpr h
  generalize a.length = k at *
  interval_cases k
  · simp at ho
  all_goals
    simp only [visit, arrival, List.cons_append, List.nil_append, List.take_succ_cons, List.take_zero, List.getElem?_cons_succ,
      List.getElem?_cons_zero, Option.some.injEq] at ha hm
    subst ha hm
  · exact ⟨[pressureAt 50], _, [], rfl, hx 100, by simp, fr _ _ (by simp [sig])⟩
  · exact ⟨[pressureAt 50, sig "tx" 100], _, [], rfl, hx 700, by simp, fr _ _ (by simp [sig])⟩
  · exact ⟨[pressureAt 50, sig "tx" 100], sig "tx" 700, [accMessage 1000 0], rfl, hx 700, by simp [hq],
      fr _ _ (by simp [sig, accMessage])⟩
  · exact ⟨[pressureAt 50, sig "tx" 100], sig "tx" 700, [accMessage 1000 0, accMessage 1250 0], rfl, hx 700, by simp [hq],
      fr _ _ (by simp [sig, accMessage])⟩
  · exact ⟨[pressureAt 50, sig "tx" 100], sig "tx" 700, [accMessage 1000 0, accMessage 1250 0, accMessage 1500 0], rfl, hx 700,
      by simp [hq], fr _ _ (by simp [sig, accMessage])⟩
  · exact ⟨[pressureAt 50, sig "tx" 100], sig "tx" 700, [accMessage 1000 0, accMessage 1250 0, accMessage 1500 0, accMessage 1750 10], rfl,
      hx 700, by simp [hq], fr _ _ (by simp [sig, accMessage])⟩
  · exact ⟨[pressureAt 50, sig "tx" 100], sig "tx" 700, [accMessage 1000 0, accMessage 1250 0, accMessage 1500 0, accMessage 1750 10,
      pressureAt 1751], rfl, hx 700, by simp [hq, hp], fr _ _ (by simp [sig, pressureAt])⟩
  · exact ⟨arrival ++ [accMessage 1750 10, pressureAt 1751], sig "ty" 12800, [], rfl, hy 12800, by simp, fr _ _ (by simp [sig])⟩
  · exact ⟨arrival ++ [accMessage 1750 10, pressureAt 1751, sig "ty" 12800], sig "tx" 17000, [], rfl, hx 17000, by simp,
      fr _ _ (by simp [sig])⟩

theorem room_session (F B : ℝ) {g : Garbage} (hg : g.sensor.data.type ≠ .LOCATION) (outs : List (Output × DebugState)) :
    Session (room F B) (roomCfg F B) g (taken [visit]) outs := by
  rw [visit_taken]
  exact ⟨visit_times, visit_noFixes hg, room_touch F B outs⟩

theorem visit_log (o0 o1 o2 o3 o4 o5 o6 o7 o8 o9 : Output × DebugState) :
    logOf (taken [visit]) [o0, o1, o2, o3, o4, o5, o6, o7, o8, o9] =
      [(50, o0), (100, o1), (700, o2), (1000, o3), (1250, o4), (1500, o5), (1750, o6), (1751, o7), (12800, o8), (17000, o9)] := by
  rw [visit_taken]
  rfl

theorem steps_iff {outs : List (Output × DebugState)} {flags : List Bool} (h : stepsOf outs = flags) {k : ℕ} {r : Output × DebugState}
    {x : Bool} (h1 : outs[k]? = some r) (h2 : flags[k]? = some x) : (decide (0 < r.2.stepCounter)) = x := by
  rw [← h] at h2
  unfold stepsOf at h2
  rw [List.getElem?_map, h1] at h2
  simpa using h2

/-- The stop of the visit. -/
theorem visit_still {o0 o1 o2 o3 o4 o5 o6 o7 o8 : Output × DebugState} (h6 : 0 < o6.2.stepCounter) (h6' : o6.1.status ≠ .NO_LEVEL)
    (h7 : ¬ 0 < o7.2.stepCounter) (h8 : ¬ 0 < o8.2.stepCounter) :
    Still roomSettings ([(50, o0), (100, o1), (700, o2), (1000, o3), (1250, o4), (1500, o5), (1750, o6), (1751, o7)] ++ [(12800, o8)]) 12800 := by
  refine ⟨[(50, o0), (100, o1), (700, o2), (1000, o3), (1250, o4), (1500, o5)], (1750, o6), [(1751, o7), (12800, o8)], rfl, ⟨h6, h6'⟩, ?_, ?_⟩
  · intro x hx
    simp only [List.mem_cons, List.not_mem_nil, or_false] at hx
    rcases hx with rfl | rfl
    · exact fun h => h7 h.1
    · exact fun h => h8 h.1
  · rw [ms_detection]; norm_num

theorem tells_shows {lv : Level} {p : XYPoint} {r : ℝ} {t : Int} {o : Output × DebugState} (h : Tells lv (some (p, r)) o.1) :
    Shows (t, o) ∧ At lv (t, o) p := ⟨h.1, h.2.2.2.2⟩

theorem north (F B : ℝ) {t1 t2 : Int} {o1 o2 : Output × DebugState} {y1 y2 : ℝ} (h1 : At (room F B) (t1, o1) ⟨0, y1⟩)
    (h2 : At (room F B) (t2, o2) ⟨0, y2⟩) (hne : y1 ≠ y2) : ¬ SameSpot (t1, o1) (t2, o2) := by
  rintro ⟨h, -⟩
  unfold At at h1 h2
  have e1 := congrArg Geo.GeoPoint.latitude h1
  have e2 := congrArg Geo.GeoPoint.latitude h2
  dsimp only [Geo.localToGps] at e1 e2 h
  rw [e1, e2] at h
  have hpos : (0 : ℝ) < 360 / Geo.poleCircumference := by
    unfold Geo.poleCircumference
    norm_num
  have : (y1 - y2) * (360 / Geo.poleCircumference) = 0 := by linarith
  rcases mul_eq_zero.mp this with h | h
  · exact hne (by linarith)
  · linarith

theorem dist_y (y1 y2 : ℝ) : Geometry.getDist 0 y1 0 y2 = |y1 - y2| := by
  unfold Geometry.getDist
  rw [sub_self, mul_zero, zero_add, Real.sqrt_mul_self_eq_abs]

/-- **C135, C136, non-vacuity.** The second beacon is four metres from the first one.  The place that is shown moves to it during the
stop, and later back: both messages move the place although the user stands still. -/
theorem C135_renewed {g : Garbage} (hg : g.sensor.data.type ≠ .LOCATION) :
    ∃ s outs pre a e1 e2, navigateAll (roomCfg 0 4) (init (roomCfg 0 4) g) [visit] = .ok (s, outs) ∧
      Session (room 0 4) (roomCfg 0 4) g (taken [visit]) outs ∧ logOf (taken [visit]) outs = pre ++ e1 :: [] ++ e2 :: [] ∧
      Moves (roomCfg 0 4).cs pre a e1 ∧ Moves (roomCfg 0 4).cs (pre ++ e1 :: []) e1 e2 ∧
      At (room 0 4) a ⟨0, 0⟩ ∧ At (room 0 4) e1 ⟨0, 4⟩ ∧ At (room 0 4) e2 ⟨0, 0⟩ ∧ e1.1 = 12800 ∧ e2.1 = 17000 := by
  obtain ⟨s, o0, o1, o2, o3, o4, o5, o6, o7, o8, o9, h, hst, hk⟩ := visit_answers 0 4 hg
  have e0 : settle (room 0 4) ⟨0, 0⟩ = ⟨0, 0⟩ := by simpa using settle_y 0 4 0 (by norm_num)
  have e4 : settle (room 0 4) ⟨0, 4⟩ = ⟨0, 4⟩ := by simpa using settle_y 0 4 4 (by norm_num)
  have hsit := sits_in 0 4 ⟨le_refl _, by norm_num⟩
  rw [e0] at hsit
  have h9 := before_nine 0 4 hsit
  rw [nine_near 0 4 ⟨by norm_num, by norm_num⟩ (by dsimp only; rw [dist_y]; norm_num [abs_lt]), e4] at h9
  obtain ⟨m6, r6, x6, y6, z6⟩ := hk 6 (by norm_num)
  obtain ⟨m7, r7, x7, y7, z7⟩ := hk 7 (by norm_num)
  obtain ⟨m8, r8, x8, y8, z8⟩ := hk 8 (by norm_num)
  obtain ⟨m9, r9, x9, y9, z9⟩ := hk 9 (by norm_num)
  cases x6; cases y6; cases x7; cases y7; cases x8; cases y8; cases x9; cases y9
  have f6 := steps_iff hst (k := 6) rfl rfl
  have f7 := steps_iff hst (k := 7) rfl rfl
  have f8 := steps_iff hst (k := 8) rfl rfl
  have f9 := steps_iff hst (k := 9) rfl rfl
  have t6 := z6.tells
  have t7 := z7.tells
  have t8 := z8.tells
  have t9 := z9.tells
  rw [f6] at t6
  rw [f7] at t7
  rw [f8] at t8
  rw [f9] at t9
  change Tells _ (before 0 4 7).answer _ at t6
  change Tells _ (before 0 4 8).answer _ at t7
  change Tells _ (before 0 4 9).answer _ at t8
  rw [(before_eight 0 4 hsit).1] at t6
  rw [(before_eight 0 4 hsit).2] at t7
  rw [h9] at t8
  rw [ten_near 0 4 ⟨le_refl _, by norm_num⟩ h9 (by dsimp only; rw [dist_y]; norm_num [abs_lt]), e0] at t9
  have u6 := tells_shows (t := 1750) t6
  have u7 := tells_shows (t := 1751) t7
  have u8 := tells_shows (t := 12800) t8
  have u9 := tells_shows (t := 17000) t9
  simp only [decide_eq_true_eq, decide_eq_false_iff_not] at f6 f7 f8 f9
  have n6 : o6.1.status ≠ .NO_LEVEL := by
    have : o6.1.status = .OK := u6.1
    rw [this]; simp
  refine ⟨s, _, [(50, o0), (100, o1), (700, o2), (1000, o3), (1250, o4), (1500, o5), (1750, o6), (1751, o7)], (1751, o7), (12800, o8),
    (17000, o9), h, room_session 0 4 hg _, visit_log .., ?_, ?_, u7.2, u8.2, u9.2, rfl, rfl⟩
  · exact ⟨visit_still f6 n6 f7 f8, u8.1,
      ⟨[(50, o0), (100, o1), (700, o2), (1000, o3), (1250, o4), (1500, o5), (1750, o6)], [], rfl, u7.1, by simp⟩,
      north 0 4 u7.2 u8.2 (by norm_num)⟩
  · refine ⟨?_, u9.1, ⟨_, [], rfl, u8.1, by simp⟩, north 0 4 u8.2 u9.2 (by norm_num)⟩
    refine ⟨[(50, o0), (100, o1), (700, o2), (1000, o3), (1250, o4), (1500, o5)], (1750, o6), [(1751, o7), (12800, o8), (17000, o9)], rfl,
      ⟨f6, n6⟩, ?_, ?_⟩
    · intro x hx
      simp only [List.mem_cons, List.not_mem_nil, or_false] at hx
      rcases hx with rfl | rfl | rfl
      · exact fun h => f7 h.1
      · exact fun h => f8 h.1
      · exact fun h => f9 h.1
    · change ⌊1000 * roomSettings.stopDetectionTime⌋ ≤ _
      rw [ms_detection]; norm_num

/-- **C135, C136, non-vacuity.** The second beacon is fifteen metres from the first one, where the client now locates the user.  The
place that is shown stays. -/
theorem C135_held {g : Garbage} (hg : g.sensor.data.type ≠ .LOCATION) :
    ∃ s outs pre post a e, navigateAll (roomCfg 0 15) (init (roomCfg 0 15) g) [visit] = .ok (s, outs) ∧
      Session (room 0 15) (roomCfg 0 15) g (taken [visit]) outs ∧ logOf (taken [visit]) outs = pre ++ e :: post ∧
      Still (roomCfg 0 15).cs (pre ++ [e]) e.1 ∧ Shows e ∧ LastShown pre a ∧
      At (room 0 15) a ⟨0, 0⟩ ∧ e.2.2.indoorPosition = ⟨0, 15⟩ ∧ At (room 0 15) e ⟨0, 0⟩ := by
  obtain ⟨s, o0, o1, o2, o3, o4, o5, o6, o7, o8, o9, h, hst, hk⟩ := visit_answers 0 15 hg
  have e0 : settle (room 0 15) ⟨0, 0⟩ = ⟨0, 0⟩ := by simpa using settle_y 0 15 0 (by norm_num)
  have hsit := sits_in 0 15 ⟨le_refl _, by norm_num⟩
  rw [e0] at hsit
  have h9 := before_nine 0 15 hsit
  rw [nine_far 0 15 ⟨by norm_num, by norm_num⟩ (by dsimp only; rw [dist_y]; norm_num), e0] at h9
  obtain ⟨m6, r6, x6, y6, z6⟩ := hk 6 (by norm_num)
  obtain ⟨m7, r7, x7, y7, z7⟩ := hk 7 (by norm_num)
  obtain ⟨m8, r8, x8, y8, z8⟩ := hk 8 (by norm_num)
  cases x6; cases y6; cases x7; cases y7; cases x8; cases y8
  have f6 := steps_iff hst (k := 6) rfl rfl
  have f7 := steps_iff hst (k := 7) rfl rfl
  have f8 := steps_iff hst (k := 8) rfl rfl
  have t6 := z6.tells
  have t7 := z7.tells
  have t8 := z8.tells
  have p8 := z8.place
  rw [f6] at t6
  rw [f7] at t7
  rw [f8] at t8 p8
  change Tells _ (before 0 15 7).answer _ at t6
  change Tells _ (before 0 15 8).answer _ at t7
  change Tells _ (before 0 15 9).answer _ at t8
  change ∀ z, (before 0 15 9).zone = some z → _ at p8
  rw [(before_eight 0 15 hsit).1] at t6
  rw [(before_eight 0 15 hsit).2] at t7
  rw [h9] at t8 p8
  have u6 := tells_shows (t := 1750) t6
  have u7 := tells_shows (t := 1751) t7
  have u8 := tells_shows (t := 12800) t8
  simp only [decide_eq_true_eq, decide_eq_false_iff_not] at f6 f7 f8
  have n6 : o6.1.status ≠ .NO_LEVEL := by
    have : o6.1.status = .OK := u6.1
    rw [this]; simp
  exact ⟨s, _, [(50, o0), (100, o1), (700, o2), (1000, o3), (1250, o4), (1500, o5), (1750, o6), (1751, o7)], [(17000, o9)], (1751, o7),
    (12800, o8), h, room_session 0 15 hg _, visit_log .., visit_still f6 n6 f7 f8, u8.1,
    ⟨[(50, o0), (100, o1), (700, o2), (1000, o3), (1250, o4), (1500, o5), (1750, o6)], [], rfl, u7.1, by simp⟩, u7.2, p8 _ rfl, u8.2⟩

/-- **C135, C136, witness.** The first beacon is outside the box of the floor, so that nothing is shown before the stop.  Then the client
hears the second one, fifteen metres from the local origin, locates the user there, and still shows no place. -/
theorem C135_silent_witness {g : Garbage} (hg : g.sensor.data.type ≠ .LOCATION) :
    ∃ s outs pre post e, navigateAll (roomCfg (-5) 15) (init (roomCfg (-5) 15) g) [visit] = .ok (s, outs) ∧
      Session (room (-5) 15) (roomCfg (-5) 15) g (taken [visit]) outs ∧ logOf (taken [visit]) outs = pre ++ e :: post ∧
      Still (roomCfg (-5) 15).cs (pre ++ [e]) e.1 ∧ (∀ x ∈ pre, ¬ Shows x) ∧ e.2.2.indoorPosition = ⟨0, 15⟩ ∧
      shownOrigin (room (-5) 15) = ⟨0, 0⟩ ∧ Blank e.2.1 ∧ e.2.1.status = .NAVIGATION_ERROR := by
  obtain ⟨s, o0, o1, o2, o3, o4, o5, o6, o7, o8, o9, h, hst, hk⟩ := visit_answers (-5) 15 hg
  have hsit := sits_out (-5) 15 (fun h => by linarith [h.1])
  have h9 := before_nine (-5) 15 hsit
  rw [nine_far (-5) 15 ⟨by norm_num, by norm_num⟩ (by dsimp only; rw [dist_y]; norm_num)] at h9
  have hno : ∀ k r, [o0, o1, o2, o3, o4, o5, o6, o7][k]? = some r → (before (-5) 15 (k + 1)).answer = none → ∀ t, ¬ Shows (t, r) := by
    intro k r hr hb t hsh
    have hlt : k < 8 := by
      by_contra hn
      rw [List.getElem?_eq_none (by simp; omega)] at hr
      cases hr
    obtain ⟨m, r', x, y, z⟩ := hk k (by omega)
    have hrr : [o0, o1, o2, o3, o4, o5, o6, o7, o8, o9][k]? = some r := by
      rw [show [o0, o1, o2, o3, o4, o5, o6, o7, o8, o9] = [o0, o1, o2, o3, o4, o5, o6, o7] ++ [o8, o9] from rfl,
        List.getElem?_append_left (by simpa using hlt)]
      exact hr
    rw [hrr] at y
    cases y
    have f : ∃ x, [false, false, false, false, false, false, true, false, false, false][k]? = some x :=
      ⟨_, List.getElem?_eq_getElem (by simp; omega)⟩
    obtain ⟨x', hx'⟩ := f
    have fl := steps_iff hst hrr hx'
    have t := z.tells
    rw [fl] at t
    have e : (before (-5) 15 k).after (room (-5) 15) roomSettings (-59) 10 m x' = before (-5) 15 (k + 1) := by
      unfold before
      interval_cases k <;> cases x <;> cases hx' <;> rfl
    rw [e, hb] at t
    exact t.2 hsh
  have b3 := before_three (-5) 15 hsit
  have b6 := before_six (-5) 15 hsit
  have b8 := before_eight (-5) 15 hsit
  have q0 := hno 0 o0 rfl (by
    have : before (-5) 15 1 = Memory.start.after (room (-5) 15) roomSettings (-59) 10 (pressureAt 50) false := rfl
    rw [this, after_one]; rfl)
  have q1 := hno 1 o1 rfl (by
    have : before (-5) 15 2 = (Memory.start.after (room (-5) 15) roomSettings (-59) 10 (pressureAt 50) false).after (room (-5) 15) roomSettings
      (-59) 10 (sig "tx" 100) false := rfl
    rw [this, after_one, after_two]; rfl)
  have q2 := hno 2 o2 rfl (by rw [b3]; rfl)
  have q3 := hno 3 o3 rfl (by rw [b6.1]; rfl)
  have q4 := hno 4 o4 rfl (by rw [b6.2.1]; rfl)
  have q5 := hno 5 o5 rfl (by rw [b6.2.2]; rfl)
  have q6 := hno 6 o6 rfl (by rw [b8.1]; rfl)
  have q7 := hno 7 o7 rfl (by rw [b8.2]; rfl)
  obtain ⟨m6, r6, x6, y6, z6⟩ := hk 6 (by norm_num)
  obtain ⟨m8, r8, x8, y8, z8⟩ := hk 8 (by norm_num)
  cases x6; cases y6; cases x8; cases y8
  have f6 := steps_iff hst (k := 6) (r := o6) rfl rfl
  have f7 := steps_iff hst (k := 7) (r := o7) rfl rfl
  have f8 := steps_iff hst (k := 8) (r := o8) rfl rfl
  have t8 := z8.tells
  have p8 := z8.place
  have c8 := z8.closes
  have w6 := z6.waits
  rw [f8] at t8 p8 c8
  rw [f6] at w6
  change Tells _ (before (-5) 15 9).answer _ at t8
  change ∀ z, (before (-5) 15 9).zone = some z → _ at p8
  change (before (-5) 15 9).answer = none → _ at c8
  change (before (-5) 15 7).answer = none → _ at w6
  rw [h9] at t8 p8 c8
  rw [b8.1, b6.2.2] at w6
  rw [b8.2] at c8
  have n6 : o6.1.status ≠ .NO_LEVEL := by
    rw [w6 rfl (by unfold accMessage; rw [sense_sensor]; exact in_use_seated (-5) (some 1750) none ⟨0, 0⟩ none none (by norm_num))
      (fun h => Mixed.sensor_not_heard h.1)]
    simp
  have s8 : o8.1.status = .NAVIGATION_ERROR := by
    refine c8 rfl ?_ ⟨sig_heard (-5) 15 (.inr rfl) 12800, by rw [room_span]; simp [seated, sig]⟩
    refine ⟨?_, 12800, ?_, (fresh_ms _ _).mpr (by simp [sig])⟩
    · simp only [Memory.sense, sig, takeOn]
      rw [if_pos (room_admitted (-5) 15 (.inr rfl))]
      simp [hearOn, room_span, seated]
    · simp only [Memory.sense]
      rw [if_pos (sig_heard (-5) 15 (.inr rfl) 12800)]
      rfl
  simp only [decide_eq_true_eq, decide_eq_false_iff_not] at f6 f7 f8
  refine ⟨s, _, [(50, o0), (100, o1), (700, o2), (1000, o3), (1250, o4), (1500, o5), (1750, o6), (1751, o7)], [(17000, o9)],
    (12800, o8), h, room_session (-5) 15 hg _, visit_log .., visit_still f6 n6 f7 f8, ?_, p8 _ rfl, ?_, t8.1, s8⟩
  · intro x hx
    simp only [List.mem_cons, List.not_mem_nil, or_false] at hx
    rcases hx with rfl | rfl | rfl | rfl | rfl | rfl | rfl | rfl
    · exact q0 _
    · exact q1 _
    · exact q2 _
    · exact q3 _
    · exact q4 _
    · exact q5 _
    · exact q6 _
    · exact q7 _
  · simp [shownOrigin, Post.fitCoordinate, room, Level.addTransmitters]

end Verif.Stand
