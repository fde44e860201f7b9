import Verif.Mixed.Props
import Mathlib.Analysis.Complex.ExponentialBounds

/-!
# C133: a client under a beacon that also gets fixes
-/

namespace Verif.Mixed

open Verif.Levels Verif.Nav Verif.Estim
open Verif.Knn (Result)
open Verif.Geo (XYPoint)

/-- The default settings with satellites and without smoothing; places are blended or not. -/
noncomputable def gpsSettings (fuse : Bool) : CommonSettings := { useSmoothing := false, useGps := true, fuseGps := fuse }

theorem gps_settings (fuse : Bool) : ZonesAndGps (gpsSettings fuse) where
  toFramed := by constructor <;> simp [gpsSettings] <;> norm_num
  toByZones := by constructor <;> simp [gpsSettings] <;> norm_num
  barometer := rfl
  smoothing := rfl
  gps := rfl
  instant := rfl
  sigma := rfl

/-- A client with one beacon at the origin. -/
noncomputable def gpsCfg (fuse : Bool) : Cfg where
  env := exEnv
  cs := gpsSettings fuse
  levels := collect [exLevel]
  noSignal := 35000
  noAction := 20000
  detector := .transmitters false
  indoor := .zone [("A", -59)] [("A", 10)]
  pre := Radio.mkCfg (collect [exLevel]) (gpsSettings fuse)
  fusion := Fusion.fusionConfig (gpsSettings fuse)

theorem gpsClient (fuse : Bool) : Client [exLevel] (gpsCfg fuse) where
  map := exClient.map
  settings := ⟨fun h => (by cases h), fun h => (by cases h)⟩
  sort := sortsBy_insertionSort _
  radioSorts := Radio.insertionSorts_lawful
  built := by
    refine ⟨[("A", ⟨-59, 10⟩)], ?_⟩
    have hz : Estim.zoneParams [("A", ⟨-59, 10⟩)] (collect [exLevel]) = some ([("A", -59)], [("A", 10)]) := by
      simp [Estim.zoneParams, collect_levels, exLevel, bareLevel, Level.addTransmitters, List.foldlM, StdMap.find?, StdMap.set,
        StdMap.insertSorted]
    unfold mkCfg createPositionEstimator
    rw [if_neg (by simp [gpsCfg, gpsSettings]), hz]
    simp [gpsCfg, gpsSettings, createLevelEstimator]

theorem gps_law (fuse : Bool) : ZoneLaw (gpsCfg fuse) exLevel (-59) 10 :=
  ⟨_, _, rfl, by simp [StdMap.find?, exLevel, bareLevel, Level.addTransmitters],
    by simp [StdMap.find?, exLevel, bareLevel, Level.addTransmitters], by norm_num⟩

/-- A fix at the place of the beacon with an accuracy of 30 m. -/
noncomputable def coarseFix (t : Int) : Measurement := ⟨.sensor ⟨.LOCATION, ⟨0, 0, 30⟩⟩, t⟩

/-- The history: a sensor and an NMEA message, and two signals of the beacon that close a window. -/
noncomputable def underBeacon : List Measurement := [exAccel 500, Outdoor.note 600, exRadio 1000, exRadio 3000]

/-- The radius of the zone. -/
noncomputable def zoneRadius : ℝ := Real.exp (11 / 20) + 1

theorem zoneRadius_bounds : 2 < zoneRadius ∧ zoneRadius < 4 := by
  unfold zoneRadius
  have h1 : (1 : ℝ) < Real.exp (11 / 20) := by
    have := Real.add_one_lt_exp (x := (11 / 20 : ℝ)) (by norm_num)
    linarith
  have h2 : Real.exp (11 / 20) < 3 := by
    have : Real.exp (11 / 20) ≤ Real.exp 1 := Real.exp_le_exp.mpr (by norm_num)
    have := Real.exp_one_lt_d9
    linarith
  constructor <;> linarith

theorem gps_heard (fuse : Bool) (t : Int) : Radio.Admissible [exLevel] (gpsCfg fuse).cs ⟨.BEACON, "tx", -70, 0, 0, 0⟩ := by
  refine ⟨?_, ?_, ?_, .inr ⟨exTx, ⟨exLevel, rfl, ?_, rfl⟩, ?_⟩⟩
  · simp [Radio.TypeEnabled, gpsCfg, gpsSettings]
  · intro _; simp [gpsCfg, gpsSettings]; norm_num
  · intro h; exact absurd rfl h
  · simp [exLevel, bareLevel, Level.addTransmitters, exTx, StdMap.insert, StdMap.insertSorted]
  · simp [exTx, gpsCfg, gpsSettings]

theorem gps_span (fuse : Bool) : spanOf (gpsCfg fuse).cs = 1000 := by simp [spanOf, gpsCfg, gpsSettings]

/-- The window of the history. -/
noncomputable def theWindow : List RadioMeasurement :=
  [⟨⟨.BEACON, "tx", -70, 0, 0, 0⟩, 1000⟩, ⟨⟨.BEACON, "tx", -70, 0, 0, 0⟩, 3000⟩]

theorem sensor_not_heard {ls : List Level} {cs : CommonSettings} {d : SensorData} {t : Int} : ¬ Heard ls cs ⟨.sensor d, t⟩ := by
  rintro ⟨d, hd, -⟩; cases hd

theorem nmea_not_heard {ls : List Level} {cs : CommonSettings} {d : NmeaData} {t : Int} : ¬ Heard ls cs ⟨.nmea d, t⟩ := by
  rintro ⟨d, hd, -⟩; cases hd

theorem windows_two (fuse : Bool) : windows [exLevel] (gpsCfg fuse).cs [exAccel 500, Outdoor.note 600] = ⟨none, [], none⟩ := by
  rw [show [exAccel 500, Outdoor.note 600] = ([] ++ [exAccel 500]) ++ [Outdoor.note 600] from rfl, windows_snoc, windows_snoc]
  unfold exAccel Outdoor.note
  rw [take_not_heard _ sensor_not_heard, take_not_heard _ nmea_not_heard]
  rfl

theorem windows_three (fuse : Bool) : windows [exLevel] (gpsCfg fuse).cs ([exAccel 500, Outdoor.note 600] ++ [exRadio 1000]) =
    ⟨some 1000, [⟨⟨.BEACON, "tx", -70, 0, 0, 0⟩, 1000⟩], none⟩ := by
  rw [windows_snoc, windows_two]
  unfold exRadio
  rw [take_heard _ (gps_heard fuse 1000), gps_span]
  simp [Windows.hear]

theorem windows_four (fuse : Bool) : windows [exLevel] (gpsCfg fuse).cs (([exAccel 500, Outdoor.note 600] ++ [exRadio 1000]) ++ [exRadio 3000]) =
    ⟨some 3000, [], some (3000, theWindow)⟩ := by
  rw [windows_snoc, windows_three]
  unfold exRadio
  rw [take_heard _ (gps_heard fuse 3000), gps_span]
  simp [Windows.hear, theWindow]

theorem fixed_strongest : Strongest theWindow "tx" := by
  refine ⟨⟨_, List.mem_cons_self, rfl⟩, fun m hm => Or.inr ?_⟩
  have : m.data.id = "tx" := by
    simp only [theWindow, List.mem_cons, List.not_mem_nil, or_false] at hm
    rcases hm with rfl | rfl <;> rfl
  rw [this]
  exact ⟨rfl, le_refl _⟩

theorem window_mean : meanRssi theWindow "tx" = -70 := by
  simp [meanRssi, Radio.ofTransmitter, Radio.mean, theWindow]

theorem gps_transmitter : exLevel.transmitter "tx" = some exTx := by
  simp [exLevel, bareLevel, Level.addTransmitters, Level.transmitter, exTx, StdMap.insert, StdMap.insertSorted, StdMap.find?]

theorem window_zone : zoneFix exLevel (-59) 10 3000 theWindow = some ⟨⟨0, 0⟩, zoneRadius, 3000⟩ := by
  rw [zoneFix_eq fixed_strongest gps_transmitter, window_mean]
  simp only [zoneRadius, exTx]
  norm_num

/-- The store after the four messages. -/
theorem stored_four (fuse : Bool) (g : Garbage) :
    stored exLevel (gpsCfg fuse).cs (-59) 10 g underBeacon = ⟨none, some ⟨⟨⟨0, 0⟩, zoneRadius, 3000⟩, (50 + zoneRadius) / 2⟩, none⟩ := by
  have hs : ∀ {ms : List Measurement} {m : Measurement}, (lastSensor g.sensor (ms ++ [m])).data.type ≠ .LOCATION →
      seen exLevel (gpsCfg fuse).cs g ms m = none := by
    intro ms m h
    unfold seen
    rw [if_neg (fun h' => h h'.1)]
  have hpass : ∀ {ms : List Measurement} {m : Measurement} (st : Store), (lastSensor g.sensor (ms ++ [m])).data.type ≠ .LOCATION →
      (windows [exLevel] (gpsCfg fuse).cs (ms ++ [m])).closed = none →
      st.after exLevel (gpsCfg fuse).cs (-59) 10 g ms m = st := by
    intro ms m st h1 h2
    unfold Store.after
    rw [hs h1, if_neg (fun h => h.2 h2)]
  have e2 : stored exLevel (gpsCfg fuse).cs (-59) 10 g [exAccel 500, Outdoor.note 600] = ⟨none, none, none⟩ := by
    rw [show [exAccel 500, Outdoor.note 600] = ([] ++ [exAccel 500]) ++ [Outdoor.note 600] from rfl, stored_snoc, stored_snoc]
    rw [hpass (ms := []) _ (by simp [lastSensor, exAccel]) (by
      rw [windows_snoc]; unfold exAccel; rw [take_not_heard _ sensor_not_heard]; rfl)]
    rw [hpass _ (by simp [lastSensor, exAccel, Outdoor.note]) (by
      have := windows_two fuse
      rw [show ([] ++ [exAccel 500]) ++ [Outdoor.note 600] = [exAccel 500, Outdoor.note 600] from rfl, this])]
    rfl
  rw [show underBeacon = ([exAccel 500, Outdoor.note 600] ++ [exRadio 1000]) ++ [exRadio 3000] from rfl, stored_snoc, stored_snoc, e2,
    hpass (ms := [exAccel 500, Outdoor.note 600]) _ (by simp [lastSensor, exAccel, Outdoor.note, exRadio]) (by rw [windows_three])]
  have hcl : Closes [exLevel] (gpsCfg fuse).cs ([exAccel 500, Outdoor.note 600] ++ [exRadio 1000]) (exRadio 3000) := by
    refine ⟨⟨_, rfl, gps_heard fuse 3000⟩, ?_⟩
    rw [windows_three, gps_span]
    simp [exRadio]
  have hin : InUse exLevel (gpsCfg fuse).cs ([exAccel 500, Outdoor.note 600] ++ [exRadio 1000]) (exRadio 3000) := by
    refine ⟨⟨_, _, [], rfl, hcl.1, by simp, ?_⟩, by rw [windows_four]; simp⟩
    change (3000 : Int) < 3000 + 1000 * 35
    norm_num
  have hnf : ¬ AtFix g ([exAccel 500, Outdoor.note 600] ++ [exRadio 1000]) (exRadio 3000) := by
    simp [AtFix, lastSensor, exAccel, Outdoor.note, exRadio]
  unfold Store.after
  rw [hs hnf, if_pos hin]
  have h1 : radioFix exLevel (gpsCfg fuse).cs (-59) 10 ([exAccel 500, Outdoor.note 600] ++ [exRadio 1000]) (exRadio 3000) =
      some ⟨⟨0, 0⟩, zoneRadius, 3000⟩ := by
    unfold radioFix
    rw [if_pos hcl, windows_four, Option.bind_some]
    exact window_zone
  have h2 : offered exLevel (gpsCfg fuse).cs g ⟨none, none, none⟩ ([exAccel 500, Outdoor.note 600] ++ [exRadio 1000]) (exRadio 3000) = none := by
    unfold offered
    rw [if_neg hnf]
  rw [h1, h2]
  rfl

theorem fix_place (g : Garbage) (t : Int) : fixPlace exLevel g underBeacon (coarseFix t) = ⟨0, 0⟩ := by
  have e : (lastSensor g.sensor (underBeacon ++ [coarseFix t])).data.values = ⟨0, 0, 30⟩ := by
    simp [lastSensor, underBeacon, exAccel, Outdoor.note, exRadio, coarseFix]
  unfold fixPlace
  rw [e]
  exact (Geo.C01_scale ⟨0, 0⟩ ⟨0, 0⟩ (by constructor <;> norm_num) (by constructor <;> norm_num)).2

theorem origin_inside : Box.Covers exLevel.geometry.boundingBox ⟨0, 0⟩ := by
  simp [Box.Covers, exLevel, bareLevel, Level.addTransmitters]

theorem fix_in_use (fuse : Bool) {k : Int} (hk' : k < 35000) :
    InUse exLevel (gpsCfg fuse).cs underBeacon (coarseFix (3000 + k)) := by
  constructor
  · refine ⟨[exAccel 500, Outdoor.note 600, exRadio 1000], exRadio 3000, [coarseFix (3000 + k)], rfl, ⟨_, rfl, gps_heard fuse 3000⟩, ?_, ?_⟩
    · intro e he
      rw [List.mem_singleton] at he
      rw [he]; exact sensor_not_heard
    · change 3000 + k < 3000 + 1000 * 35
      omega
  · rw [windows_snoc, coarseFix, take_not_heard _ sensor_not_heard]
    have := windows_four fuse
    rw [show underBeacon = ([exAccel 500, Outdoor.note 600] ++ [exRadio 1000]) ++ [exRadio 3000] from rfl, this]
    simp

/-- The store after the fix. -/
theorem stored_five (fuse : Bool) (g : Garbage) {k : Int} (hk' : k < 35000) :
    stored exLevel (gpsCfg fuse).cs (-59) 10 g (underBeacon ++ [coarseFix (3000 + k)]) =
      ⟨some ⟨⟨0, 0⟩, 30, 3000 + k⟩, some ⟨⟨⟨0, 0⟩, zoneRadius, 3000⟩, (50 + zoneRadius) / 2⟩, some ⟨⟨⟨0, 0⟩, 30, 3000 + k⟩, 40⟩⟩ := by
  rw [stored_snoc, stored_four]
  have hat : AtFix g underBeacon (coarseFix (3000 + k)) := by
    simp [AtFix, lastSensor, underBeacon, exAccel, Outdoor.note, exRadio, coarseFix]
  have hseen : seen exLevel (gpsCfg fuse).cs g underBeacon (coarseFix (3000 + k)) = some ⟨⟨0, 0⟩, 30, 3000 + k⟩ := by
    have hsat : EnoughSatellites (gpsCfg fuse).cs g underBeacon (coarseFix (3000 + k)) := by
      intro h
      have : (lastNmea g.nmea (underBeacon ++ [coarseFix (3000 + k)])).data.sentenceNumber = 0 := by
        simp [lastNmea, underBeacon, exAccel, Outdoor.note, exRadio, coarseFix]
      rw [this] at h
      cases h
    have e : (lastSensor g.sensor (underBeacon ++ [coarseFix (3000 + k)])).data.values = ⟨0, 0, 30⟩ := by
      simp [lastSensor, underBeacon, exAccel, Outdoor.note, exRadio, coarseFix]
    have hmax : max (30 : ℝ) (gpsCfg fuse).cs.minGpsDeviation = 30 := by
      simp [gpsCfg, gpsSettings]
      norm_num
    unfold seen
    rw [if_pos ⟨hat, by rw [fix_place]; exact origin_inside, hsat⟩, fix_place, e]
    simp only [hmax]
    rfl
  have hnc : ¬ Closes [exLevel] (gpsCfg fuse).cs underBeacon (coarseFix (3000 + k)) := fun h => sensor_not_heard h.1
  have h1 : radioFix exLevel (gpsCfg fuse).cs (-59) 10 underBeacon (coarseFix (3000 + k)) = none := by
    unfold radioFix
    rw [if_neg hnc]
  have h2 : ∀ st, offered exLevel (gpsCfg fuse).cs g st underBeacon (coarseFix (3000 + k)) = some ⟨⟨0, 0⟩, 30, 3000 + k⟩ := by
    intro st
    unfold offered
    rw [if_pos hat, hseen]
  unfold Store.after
  rw [hseen, if_pos (fix_in_use fuse hk'), h1, h2]
  have : ((gpsCfg fuse).cs.priorDeviation + 30) / 2 = 40 := by simp [gpsCfg, gpsSettings]; norm_num
  simp only [store, keep, this]

theorem gps_dead (fuse : Bool) : ⌊1000 * (gpsCfg fuse).cs.deadReckoningTime⌋ = 5000 := by
  have : (1000 : ℝ) * (gpsCfg fuse).cs.deadReckoningTime = ((5000 : Int) : ℝ) := by
    simp [gpsCfg, gpsSettings]; norm_num
  rw [this, Int.floor_intCast]

/-- **C133** is about possible histories, and its rules have consequences.  The client hears the beacon, and `k` milliseconds
later it gets a fix from the satellite receiver with an accuracy of 30 m at the same place.  Without blending it reports the
beacon for five seconds; from then on until second thirteen it answers NO_SOLUTION although the fix is fresh, since the old zone
is preferred and then found too old; after second fourteen it reports the fix, with the radius of the beacon's zone (below
four metres) instead of its own.  With blending it answers for twenty seconds with a blend, and later with the fix. -/
theorem C133_example (g : Garbage) (fuse : Bool) (k : Int) (hk : 0 ≤ k) (hk' : k < 35000) :
    ∃ s outs s' out dbg, navigateAll (gpsCfg fuse) (init (gpsCfg fuse) g) [underBeacon] = .ok (s, outs) ∧
      navigate (gpsCfg fuse) s [coarseFix (3000 + k)] = .ok (s', [(out, dbg)]) ∧
      (fuse = false → k < 5000 → out.status = .OK ∧ out.provider = some .INDOOR) ∧
      (fuse = false → 5000 ≤ k → k ≤ 13000 → out.status = .NO_SOLUTION) ∧
      (fuse = false → 14000 ≤ k → out.status = .OK ∧ out.provider = some .GNSS ∧ ∃ r, out.posR = some r ∧ r < 4) ∧
      (fuse = true → k ≤ 20000 → out.status = .OK ∧ out.provider = some .FUSED) ∧
      (fuse = true → 20000 < k → out.status = .OK ∧ out.provider = some .GNSS) := by
  obtain ⟨s, outs, h1, -⟩ := C79_total (gpsClient fuse) g [underBeacon]
  have hrec : records underBeacon = underBeacon :=
    records_ordered _ (by simp [underBeacon, Ordered, exAccel, Outdoor.note, exRadio])
  have htk : taken [underBeacon] = underBeacon := by simp [taken, hrec]
  obtain ⟨s', out, dbg, z, h2, h3, h4, h5⟩ := C133_answer (gpsClient fuse) (gps_settings fuse) (gps_law fuse) g [underBeacon] h1
    (coarseFix (3000 + k)) (by
      rw [htk]
      intro e he
      simp only [underBeacon, List.mem_append, List.mem_cons, List.not_mem_nil, or_false] at he
      rcases he with (rfl | rfl | rfl | rfl) | rfl <;> simp only [exRadio, exAccel, Outdoor.note, coarseFix] <;> omega)
    (by rw [htk]; exact fix_in_use fuse hk')
  rw [htk, stored_five fuse g hk'] at h3 h4 h5
  simp only [Option.some.injEq] at h3
  subst h3
  have hnc : ¬ Closes [exLevel] (gpsCfg fuse).cs underBeacon (coarseFix (3000 + k)) := fun h => sensor_not_heard h.1
  have hts : (coarseFix (3000 + k)).ts = 3000 + k := rfl
  rw [gps_dead, hts] at h4 h5
  obtain ⟨b1, b2⟩ := zoneRadius_bounds
  have hkr : (0 : ℝ) ≤ (k : ℝ) := by exact_mod_cast hk
  -- the choice
  have hage1 : age (3000 + k) ⟨⟨⟨0, 0⟩, zoneRadius, 3000⟩, (50 + zoneRadius) / 2⟩ = (k : ℝ) / 1000 := by
    unfold age
    rw [show (3000 + k - 3000 : Int) = k by ring, max_eq_right (by positivity)]
  have hage2 : age (3000 + k) ⟨⟨⟨0, 0⟩, 30, 3000 + k⟩, 40⟩ = 0 := by
    unfold age
    simp
  have hr1 : reach (gpsCfg fuse).cs (3000 + k) ⟨⟨⟨0, 0⟩, zoneRadius, 3000⟩, (50 + zoneRadius) / 2⟩ =
      (k : ℝ) / 1000 + (50 + zoneRadius) / 2 := by
    unfold reach
    rw [hage1]
    simp [gpsCfg, gpsSettings]
  have hr2 : reach (gpsCfg fuse).cs (3000 + k) ⟨⟨⟨0, 0⟩, 30, 3000 + k⟩, 40⟩ = 40 := by
    unfold reach
    rw [hage2]
    simp
  have hold : (gpsCfg fuse).cs.positionIsTooOldSec = 20 := rfl
  have hpref : ¬ ((gpsCfg fuse).cs.preferIndoorSolution = true ∧ Closes [exLevel] (gpsCfg fuse).cs underBeacon (coarseFix (3000 + k))) :=
    fun h => hnc h.2
  have hfuse : (gpsCfg fuse).cs.fuseGps = fuse := rfl
  have hover : Overlap (gpsCfg fuse).cs ⟨⟨⟨0, 0⟩, zoneRadius, 3000⟩, (50 + zoneRadius) / 2⟩ ⟨⟨⟨0, 0⟩, 30, 3000 + k⟩, 40⟩ := by
    unfold Overlap
    have : (gpsCfg fuse).cs.fuseGpsBorderM = 10 := rfl
    rw [this]
    simp only [Geometry.getDist, sub_self]
    norm_num
    linarith
  generalize hch : choose (gpsCfg fuse).cs (Closes [exLevel] (gpsCfg fuse).cs underBeacon (coarseFix (3000 + k))) (3000 + k)
    ⟨⟨⟨0, 0⟩, zoneRadius, 3000⟩, (50 + zoneRadius) / 2⟩ (some ⟨⟨⟨0, 0⟩, 30, 3000 + k⟩, 40⟩) = ch at h4 h5
  unfold choose at hch
  dsimp only at hch
  rw [if_neg hpref, hage1, hage2, hold, hfuse, hr1, hr2, if_neg (by norm_num : ¬ (20 : ℝ) < 0)] at hch
  refine ⟨s, outs, s', out, dbg, h1, h2, ?_, ?_, ?_, ?_, ?_⟩
  · rintro rfl hlt
    have hlt' : (k : ℝ) < 5000 := by exact_mod_cast hlt
    rw [if_neg (by linarith), if_neg (by simp), if_pos (by linarith)] at hch
    subst hch
    obtain ⟨r1, -, r3, -⟩ := h4 ⟨origin_inside, by simp only [Kept.asZone]; omega⟩
    exact ⟨r1, r3⟩
  · rintro rfl hge hle
    have hle' : (k : ℝ) ≤ 13000 := by exact_mod_cast hle
    rw [if_neg (by linarith), if_neg (by simp), if_pos (by linarith)] at hch
    subst hch
    exact (h5 (fun h => by have := h.2; simp only [Kept.asZone] at this; omega)).2.2 hnc
  · rintro rfl hge
    have hge' : (14000 : ℝ) ≤ k := by exact_mod_cast hge
    have hch' : ch = Kept.asSat ⟨⟨⟨0, 0⟩, 30, 3000 + k⟩, 40⟩ := by
      rw [← hch]
      by_cases c1 : (20 : ℝ) < k / 1000
      · rw [if_pos c1]
      · rw [if_neg c1, if_neg (by simp), if_neg (by linarith)]
    subst hch'
    obtain ⟨r1, -, r3, r4, -⟩ := h4 ⟨origin_inside, by simp only [Kept.asSat]; omega⟩
    exact ⟨r1, r3, _, r4, b2⟩
  · rintro rfl hle
    have hle' : (k : ℝ) ≤ 20000 := by exact_mod_cast hle
    rw [if_neg (by linarith), if_pos ⟨rfl, hover⟩] at hch
    have hpl : ch.place = ⟨0, 0⟩ := by
      rw [← hch]
      simp only [blend]
      rw [hr1, hr2, divide_pos (by linarith)]
      simp
    have htm : ch.time = 3000 + k := by
      rw [← hch]
      simp only [blend]
      omega
    have hpr : ch.provider = .FUSED := by rw [← hch]; rfl
    obtain ⟨r1, -, r3, -⟩ := h4 ⟨by rw [hpl]; exact origin_inside, by rw [htm]; omega⟩
    exact ⟨r1, by rw [r3, hpr]⟩
  · rintro rfl hgt
    have hgt' : (20000 : ℝ) < k := by exact_mod_cast hgt
    rw [if_pos (by linarith)] at hch
    subst hch
    obtain ⟨r1, -, r3, -⟩ := h4 ⟨origin_inside, by simp only [Kept.asSat]; omega⟩
    exact ⟨r1, r3⟩

end Verif.Mixed
