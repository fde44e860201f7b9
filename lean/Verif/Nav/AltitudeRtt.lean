import Verif.Nav.AltitudeProps
import Verif.Nav.ZoneProps
import Verif.Trilat.Altitude

/-!
# The altitude that a client reports for ranging signals: C101
-/

namespace Verif.Nav

open Verif.Levels

/-! ## Specification -/

/-- Every signal of the window is a Wi-Fi RTT signal of a transmitter of the level, and its distance is the true one from the
point `t`, which is not the place of the transmitter, plus the offset of the settings. -/
def RangedFrom (offset : ℝ) (lv : Level) (t : XYZPoint) (win : List RadioMeasurement) : Prop :=
  ∀ m ∈ win, m.data.type = .WIFI_RTT ∧ ∃ tx, lv.transmitter m.data.id = some tx ∧
    0 < Trilat.dist3 t tx.point ∧ m.data.distance = Trilat.dist3 t tx.point + offset

/-- What a transmitter adds to the altitude that is reported at the point `t`: its height plus the vertical distance as the code
computes it, divided by its distance; nothing if the vertical distance is not a number. -/
noncomputable def heightAt (lv : Level) (t : XYZPoint) (id : String) : Option ℝ :=
  (lv.transmitter id).bind (fun tx => (Trilat.deltaZ (Trilat.dist3 t tx.point) t.x t.y tx.point).map
    (fun dz => (tx.point.z + dz) / Trilat.dist3 t tx.point))

/-! ## Proofs -/

/-- **C101.** The altitude in the answer to a signal that closes a window is computed from the averages of this window, one for each
transmitter heard; the distances of ranging signals are the mean ones without the offset. -/
theorem C101_window {lv : Level} {c : Cfg} (hc : Client [lv] c) (hp : PlainZones c.cs) (hu : c.cs.useAltitude = true) (g : Garbage)
    (batches : List (List Measurement)) {s : State} {outs : List (Output × DebugState)}
    (h : navigateAll c (init c g) batches = .ok (s, outs)) (m : Measurement) (hts : ∀ e ∈ taken batches ++ [m], 0 < e.ts)
    (hcl : Closes [lv] c.cs (taken batches) m) :
    ∃ s' out dbg win radio, navigate c s [m] = .ok (s', [(out, dbg)]) ∧
      (windows [lv] c.cs (taken batches ++ [m])).closed = some (m.ts, win) ∧
      HandedOut win radio ∧ RttDistances c.cs.wiFiRttOffset win radio ∧
      (out.status = .OK → ∃ a, Trilat.calculateAltitude c.env.distanceSort c.env.solve lv radio = some a ∧
        out.posAltitude = shownAltitude a) := by
  obtain ⟨s', out, dbg, radio, h1, ⟨t, h2⟩, h3⟩ := C101_altitude hc g batches h m
  rw [navigateAll_eq] at h
  have hz := zoned_runs hc hp g _ (fun e he => hts e (by simp [he])) h
  obtain ⟨-, ⟨-, hn, -⟩ | ⟨-, d, win, -, -, -, hw, -, hho, hrd⟩⟩ := framed_radio hc hp.toWindowed.framed hz.buffered (hts m (by simp)) h2
  · exact absurd hcl hn
  refine ⟨s', out, dbg, win, radio, h1, ?_, hho, hrd, fun hok => ?_⟩
  · rw [windows_snoc]; exact hw
  · obtain ⟨lv', hlv, -, a, ha, ho⟩ := (h3 hok).2 hu
    rw [List.mem_singleton] at hlv
    exact ⟨a, hlv ▸ ha, ho⟩

theorem mean_const {l : List ℝ} (hne : l ≠ []) {x : ℝ} (h : ∀ y ∈ l, y = x) : Radio.mean l = x := by
  have e : l = List.replicate l.length x := List.eq_replicate_iff.mpr ⟨rfl, h⟩
  have hl : (l.length : ℝ) ≠ 0 := by
    simpa using hne
  unfold Radio.mean
  rw [e, List.sum_replicate, List.length_replicate, nsmul_eq_mul, mul_div_cancel_left₀ _ hl]

/-- **C101.** The ranging signals of a window carry the true distances from a point to at least four transmitters of the level that
are not in one plane. Then, whatever least squares solver is used, the altitude in the answer with a place is the sum, over the
transmitters heard, of what each of them adds (`heightAt`). -/
theorem C101_ranging {lv : Level} {c : Cfg} (hc : Client [lv] c) (hp : PlainZones c.cs) (hu : c.cs.useAltitude = true)
    (hls : Trilat.LeastSquares c.env.solve) (g : Garbage)
    (batches : List (List Measurement)) {s : State} {outs : List (Output × DebugState)}
    (h : navigateAll c (init c g) batches = .ok (s, outs)) (m : Measurement) (hts : ∀ e ∈ taken batches ++ [m], 0 < e.ts)
    (hcl : Closes [lv] c.cs (taken batches) m) {t0 : Int} {win : List RadioMeasurement}
    (hw : (windows [lv] c.cs (taken batches ++ [m])).closed = some (t0, win)) {t : XYZPoint}
    (hr : RangedFrom c.cs.wiFiRttOffset lv t win) {heard : List String} (hnd : heard.Nodup)
    (hheard : ∀ id, id ∈ heard ↔ ∃ m ∈ win, m.data.id = id) (h4 : 4 ≤ heard.length)
    (hspan : Trilat.NotCoplanar lv (win.map (·.data))) :
    ∃ s' out dbg, navigate c s [m] = .ok (s', [(out, dbg)]) ∧
      (out.status = .OK → out.posAltitude = some (heard.filterMap (heightAt lv t)).sum) := by
  obtain ⟨s', out, dbg, win', radio, h1, hw', hho, hrd, ha⟩ := C101_window hc hp hu g batches h m hts hcl
  rw [hw] at hw'
  cases hw'
  refine ⟨s', out, dbg, h1, fun hok => ?_⟩
  obtain ⟨a, ha1, ha2⟩ := ha hok
  have hsent : ∀ e ∈ radio, ∃ tx, lv.transmitter e.id = some tx ∧ 0 < Trilat.dist3 t tx.point ∧
      e.distance = Trilat.dist3 t tx.point := by
    intro e he
    obtain ⟨m0, hm0, hid⟩ := (hho.ids e.id).mp ⟨e, he, rfl⟩
    obtain ⟨-, tx, htx, hpos, -⟩ := hr m0 hm0
    rw [hid] at htx
    refine ⟨tx, htx, hpos, ?_⟩
    rw [hrd e he (fun m1 hm1 _ => (hr m1 hm1).1), mean_const (x := Trilat.dist3 t tx.point + c.cs.wiFiRttOffset)]
    · ring
    · simp only [ne_eq, List.map_eq_nil_iff, Radio.ofTransmitter, List.filter_eq_nil_iff]
      push Not
      exact ⟨m0, hm0, by simpa using hid⟩
    · intro y hy
      obtain ⟨m1, hm1, rfl⟩ := List.mem_map.mp hy
      simp only [Radio.ofTransmitter, List.mem_filter, decide_eq_true_eq] at hm1
      obtain ⟨-, tx1, htx1, -, hd1⟩ := hr m1 hm1.1
      rw [hm1.2, htx] at htx1
      cases htx1
      exact hd1
  have hnd' : (radio.map RadioData.id).Nodup := hho.sorted.imp (fun hlt => ne_of_lt hlt)
  have hperm : (radio.map RadioData.id).Perm heard := by
    rw [List.perm_ext_iff_of_nodup hnd' hnd]
    intro id
    rw [hheard, ← hho.ids, List.mem_map]
  have hans := Trilat.C51_answer hc.sort c.env.solve hls lv t radio
    (by rw [← hperm.length_eq, List.length_map] at h4; exact h4) hnd'
    (fun e he => by obtain ⟨tx, h1, -, h2⟩ := hsent e he; exact ⟨tx, h1, h2⟩)
    (fun e he => by obtain ⟨tx, -, h1, h2⟩ := hsent e he; rw [h2]; exact h1)
    (by
      intro v k hv
      refine hspan v k ?_
      intro d hd tx htx
      obtain ⟨m0, hm0, rfl⟩ := List.mem_map.mp hd
      obtain ⟨e, he, hid⟩ := (hho.ids m0.data.id).mpr ⟨m0, hm0, rfl⟩
      exact hv e he tx (by rw [hid]; exact htx))
  have hterm : ∀ e ∈ radio, Trilat.heightTerm lv t.x t.y e = heightAt lv t e.id := by
    intro e he
    obtain ⟨tx, htx, -, hd⟩ := hsent e he
    simp [Trilat.heightTerm, heightAt, htx, hd]
  have hmap : radio.filterMap (Trilat.heightTerm lv t.x t.y) = (radio.map RadioData.id).filterMap (heightAt lv t) := by
    rw [List.filterMap_map]
    exact List.filterMap_congr hterm
  rw [ha1, Option.some.injEq] at hans
  rw [ha2, hans, ← (hperm.filterMap (heightAt lv t)).sum_eq, ← hmap]
  split_ifs with hno
  · rw [List.filterMap_eq_nil_iff.mpr hno]; rfl
  · rfl

/-! ## A client that asks for the altitude -/

/-- The default settings without smoothing, with all kinds of signals and with the altitude. -/
noncomputable def rttSettings : CommonSettings := { useSmoothing := false, useAltitude := true, signalsToUse := .BOTH }

theorem rtt_settings : PlainZones rttSettings := by
  refine ⟨⟨?_, ?_⟩, ?_⟩
  · exact ⟨by constructor <;> simp [rttSettings] <;> norm_num, by simp [rttSettings]⟩
  · simp [rttSettings]
  · constructor <;> simp [rttSettings] <;> norm_num

/-- A client for the level with four beacons that are not in one plane. -/
noncomputable def rttCfg (solve : List Trilat.Row → XYZPoint) : Cfg where
  env := { exEnv with solve := solve }
  cs := rttSettings
  levels := collect [Trilat.exampleLevel]
  noSignal := 35000
  noAction := 20000
  detector := .transmitters false
  indoor := .zone [("l", -59)] [("l", 10)]
  pre := Radio.mkCfg (collect [Trilat.exampleLevel]) rttSettings
  fusion := Fusion.fusionConfig rttSettings

theorem rttClient (solve : List Trilat.Row → XYZPoint) : Client [Trilat.exampleLevel] (rttCfg solve) where
  map := by
    refine ⟨by simp, ?_, ?_, ?_⟩ <;> intro l hl <;> rw [List.mem_singleton] at hl <;> rw [hl]
    · simp [Trilat.exampleLevel]
    · rfl
    · exact ⟨[], rfl⟩
  settings := ⟨fun h => (by cases h), fun h => (by cases h)⟩
  sort := sortsBy_insertionSort _
  radioSorts := Radio.insertionSorts_lawful
  built := by
    refine ⟨[("l", ⟨-59, 10⟩)], ?_⟩
    have hz : Estim.zoneParams [("l", ⟨-59, 10⟩)] (collect [Trilat.exampleLevel]) = some ([("l", -59)], [("l", 10)]) := by
      simp [Estim.zoneParams, collect_levels, Trilat.exampleLevel, List.foldlM, StdMap.find?, StdMap.set, StdMap.insertSorted]
    unfold mkCfg createPositionEstimator
    rw [if_neg (by simp [rttCfg, rttSettings]), hz]
    simp [rttCfg, rttSettings, createLevelEstimator]

/-- A ranging signal. -/
noncomputable def ranging (id : String) (rssi d : ℝ) (t : Int) : Measurement := ⟨.radio ⟨.WIFI_RTT, id, rssi, 0, d, 0⟩, t⟩

theorem ranging_admissible (solve : List Trilat.Row → XYZPoint) {id : String} (hid : id ∈ ["a", "b", "c", "d"]) {rssi : ℝ}
    (h1 : -100 < rssi) (h2 : rssi < 0) (d : ℝ) :
    Radio.Admissible [Trilat.exampleLevel] (rttCfg solve).cs ⟨.WIFI_RTT, id, rssi, 0, d, 0⟩ := by
  refine ⟨?_, ?_, ?_, .inr ?_⟩
  · simp [Radio.TypeEnabled, rttCfg, rttSettings]
  · intro _; simp [rttCfg, rttSettings]; exact ⟨by linarith, h2⟩
  · intro h; exact absurd rfl h
  · simp only [List.mem_cons, List.not_mem_nil, or_false] at hid
    rcases hid with rfl | rfl | rfl | rfl <;>
      exact ⟨_, ⟨Trilat.exampleLevel, rfl, by simp [Trilat.exampleLevel], rfl⟩, by simp [rttCfg, rttSettings]⟩

/-- The messages before the one that closes the window: exact distances from the origin, plus the offset of
the settings, which is −1.5 m by default. -/
noncomputable def rangings : List Measurement := [ranging "a" (-50) (3 / 2) 1000, ranging "b" (-60) (7 / 2) 1100, ranging "c" (-60) (7 / 2) 1200]

/-- **C101, the altitude is wrong.** The device is at the origin, at altitude 0, and measures the exact distances (plus the offset) to four beacons that
are not in one plane. For every least squares solver the client answers with status OK and altitude 5.2. -/
theorem C101_altitude_wrong (solve : List Trilat.Row → XYZPoint) (hls : Trilat.LeastSquares solve) (g : Garbage) :
    ∃ s outs s' out dbg, navigateAll (rttCfg solve) (init (rttCfg solve) g) [rangings] = .ok (s, outs) ∧
      navigate (rttCfg solve) s [ranging "d" (-60) (7 / 2) 2000] = .ok (s', [(out, dbg)]) ∧
      out.status = .OK ∧ out.posLevel = "l" ∧ out.posAltitude = some (26 / 5) := by
  obtain ⟨s, outs, h1, -⟩ := C79_total (rttClient solve) g [rangings]
  have htk : taken [rangings] = rangings := by
    have : records rangings = rangings := records_ordered _ (by simp [Ordered, rangings, ranging])
    simp [taken, this]
  have hspan : spanOf (rttCfg solve).cs = 1000 := by
    simp [spanOf, rttCfg, rttSettings]
  have hoff : (rttCfg solve).cs.wiFiRttOffset = -3 / 2 := by simp [rttCfg, rttSettings]
  have hdead : ⌊1000 * (rttCfg solve).cs.deadReckoningTime⌋ = 5000 := by
    have : (1000 : ℝ) * (rttCfg solve).cs.deadReckoningTime = ((5000 : Int) : ℝ) := by
      simp [rttCfg, rttSettings]; norm_num
    rw [this, Int.floor_intCast]
  have aa := ranging_admissible solve (id := "a") (by simp) (rssi := -50) (by norm_num) (by norm_num) (3 / 2)
  have ab := ranging_admissible solve (id := "b") (by simp) (rssi := -60) (by norm_num) (by norm_num) (7 / 2)
  have ac := ranging_admissible solve (id := "c") (by simp) (rssi := -60) (by norm_num) (by norm_num) (7 / 2)
  have ad := ranging_admissible solve (id := "d") (by simp) (rssi := -60) (by norm_num) (by norm_num) (7 / 2)
  have hopen : (windows [Trilat.exampleLevel] (rttCfg solve).cs rangings).opened = some 1000 ∧
      (windows [Trilat.exampleLevel] (rttCfg solve).cs rangings).pending =
        [⟨⟨.WIFI_RTT, "a", -50, 0, 3 / 2, 0⟩, 1000⟩, ⟨⟨.WIFI_RTT, "b", -60, 0, 7 / 2, 0⟩, 1100⟩, ⟨⟨.WIFI_RTT, "c", -60, 0, 7 / 2, 0⟩, 1200⟩] := by
    rw [show rangings = (([] ++ [ranging "a" (-50) (3 / 2) 1000]) ++ [ranging "b" (-60) (7 / 2) 1100]) ++ [ranging "c" (-60) (7 / 2) 1200] from rfl,
      windows_snoc, windows_snoc, windows_snoc]
    unfold ranging
    rw [take_heard _ aa, take_heard _ ab, take_heard _ ac, hspan]
    simp [Windows.hear, windows]
  have hcl : Closes [Trilat.exampleLevel] (rttCfg solve).cs (taken [rangings]) (ranging "d" (-60) (7 / 2) 2000) := by
    refine ⟨⟨_, rfl, ad⟩, ?_⟩
    rw [hspan, htk, hopen.1]
    simp [ranging]
  have hw : (windows [Trilat.exampleLevel] (rttCfg solve).cs (taken [rangings] ++ [ranging "d" (-60) (7 / 2) 2000])).closed =
      some (2000, [⟨⟨.WIFI_RTT, "a", -50, 0, 3 / 2, 0⟩, 1000⟩, ⟨⟨.WIFI_RTT, "b", -60, 0, 7 / 2, 0⟩, 1100⟩,
        ⟨⟨.WIFI_RTT, "c", -60, 0, 7 / 2, 0⟩, 1200⟩, ⟨⟨.WIFI_RTT, "d", -60, 0, 7 / 2, 0⟩, 2000⟩]) := by
    rw [htk, windows_snoc]
    unfold ranging
    rw [take_heard _ ad, hspan]
    unfold Windows.hear
    rw [hopen.1, hopen.2]
    simp
  have hts : ∀ e ∈ taken [rangings] ++ [ranging "d" (-60) (7 / 2) 2000], 0 < e.ts := by
    rw [htk]
    simp [rangings, ranging]
  obtain ⟨d1, d2, d3, d4⟩ := Trilat.true_distances
  obtain ⟨s', out, dbg, h2, h3⟩ := C101_ranging (rttClient solve) rtt_settings rfl hls g [rangings] h1 _ hts hcl hw
    (t := ⟨0, 0, 0⟩)
    (by
      intro m hm
      rw [hoff]
      simp only [List.mem_cons, List.not_mem_nil, or_false] at hm
      rcases hm with rfl | rfl | rfl | rfl
      · exact ⟨rfl, _, rfl, by rw [d1]; norm_num, by rw [d1]; norm_num⟩
      · exact ⟨rfl, _, rfl, by rw [d2]; norm_num, by rw [d2]; norm_num⟩
      · exact ⟨rfl, _, rfl, by rw [d3]; norm_num, by rw [d3]; norm_num⟩
      · exact ⟨rfl, _, rfl, by rw [d4]; norm_num, by rw [d4]; norm_num⟩)
    (heard := ["a", "b", "c", "d"]) (by simp)
    (by intro id; simp [eq_comm]) (by simp)
    (by
      intro v c h
      have a := h ⟨.WIFI_RTT, "a", -50, 0, 3 / 2, 0⟩ (by simp) _ rfl
      have b := h ⟨.WIFI_RTT, "b", -60, 0, 7 / 2, 0⟩ (by simp) _ rfl
      have d := h ⟨.WIFI_RTT, "c", -60, 0, 7 / 2, 0⟩ (by simp) _ rfl
      have e := h ⟨.WIFI_RTT, "d", -60, 0, 7 / 2, 0⟩ (by simp) _ rfl
      norm_num at a b d e
      cases v
      simp only at a b d e
      simp only [XYZPoint.mk.injEq]
      refine ⟨by linarith, by linarith, by linarith⟩)
  obtain ⟨s'', out', dbg', b, t, h2', h4, h5, -, h6, -⟩ := C94_zone (rttClient solve) rtt_settings g [rangings] h1
    (ranging "d" (-60) (7 / 2) 2000) hts
    ⟨rangings, ranging "d" (-60) (7 / 2) 2000, [], by rw [htk], ⟨_, rfl, ad⟩, by simp,
      by simp [ranging, rttCfg, rttSettings]⟩ hw
  rw [h2] at h2'
  cases h2'
  have hb : b = "a" := by
    obtain ⟨⟨mm, hmm, hb⟩, hmax⟩ := h4
    have := hmax ⟨⟨.WIFI_RTT, "a", -50, 0, 3 / 2, 0⟩, 1000⟩ (by simp)
    simp only [List.mem_cons, List.not_mem_nil, or_false] at hmm
    rcases hmm with rfl | rfl | rfl | rfl
    · exact hb.symm
    all_goals
      rw [← hb] at this
      simp [meanRssi, Radio.ofTransmitter, Radio.mean] at this
      norm_num at this
  subst hb
  have ht : t = ⟨"a", ⟨0, 0, 3⟩, ⟨0, 0, 0⟩, .BEACON⟩ := by
    have : Trilat.exampleLevel.transmitter "a" = some ⟨"a", ⟨0, 0, 3⟩, ⟨0, 0, 0⟩, .BEACON⟩ := rfl
    rw [this] at h5
    cases h5
    rfl
  subst ht
  rw [hdead] at h6
  obtain ⟨r1, r2, -⟩ := h6 ⟨by simp [Estim.Box.Covers, Trilat.exampleLevel], by simp [ranging]⟩
  refine ⟨s, outs, s', out, dbg, h1, h2, r1, r2, ?_⟩
  rw [h3 r1]
  have ta : heightAt Trilat.exampleLevel ⟨0, 0, 0⟩ "a" = some 2 := by
    have : Trilat.exampleLevel.transmitter "a" = some ⟨"a", ⟨0, 0, 3⟩, ⟨0, 0, 0⟩, .BEACON⟩ := rfl
    simp only [heightAt, this, Option.bind_some, d1]
    have za : Trilat.deltaZ 3 0 0 ⟨0, 0, 3⟩ = some 3 := by
      unfold Trilat.deltaZ
      norm_num [Trilat.cPow_zero]
      exact Trilat.sqrt_of_mul _ _ (by norm_num) (by norm_num)
    rw [za]; norm_num
  have tb : heightAt Trilat.exampleLevel ⟨0, 0, 0⟩ "b" = some (6 / 5) := by
    have : Trilat.exampleLevel.transmitter "b" = some ⟨"b", ⟨4, 0, 3⟩, ⟨0, 0, 0⟩, .BEACON⟩ := rfl
    simp only [heightAt, this, Option.bind_some, d2]
    have zb : Trilat.deltaZ 5 0 0 ⟨4, 0, 3⟩ = some 3 := by
      unfold Trilat.deltaZ
      norm_num [Trilat.cPow_neg_two]
      exact Trilat.sqrt_of_mul _ _ (by norm_num) (by norm_num)
    rw [zb]; norm_num
  have tc : heightAt Trilat.exampleLevel ⟨0, 0, 0⟩ "c" = none := by
    have : Trilat.exampleLevel.transmitter "c" = some ⟨"c", ⟨0, 4, 3⟩, ⟨0, 0, 0⟩, .BEACON⟩ := rfl
    simp only [heightAt, this, Option.bind_some, d3]
    have zc : Trilat.deltaZ 5 0 0 ⟨0, 4, 3⟩ = none := by
      unfold Trilat.deltaZ
      norm_num [Trilat.cPow_zero_neg]
    rw [zc]; rfl
  have td : heightAt Trilat.exampleLevel ⟨0, 0, 0⟩ "d" = some 2 := by
    have : Trilat.exampleLevel.transmitter "d" = some ⟨"d", ⟨0, 0, 5⟩, ⟨0, 0, 0⟩, .BEACON⟩ := rfl
    simp only [heightAt, this, Option.bind_some, d4]
    have zd : Trilat.deltaZ 5 0 0 ⟨0, 0, 5⟩ = some 5 := by
      unfold Trilat.deltaZ
      norm_num [Trilat.cPow_zero]
      exact Trilat.sqrt_of_mul _ _ (by norm_num) (by norm_num)
    rw [zd]; norm_num
  simp only [List.filterMap_cons, List.filterMap_nil, ta, tb, tc, td]
  norm_num

/-- Non-vacuity of `C101_window`, `C101_ranging` and `C101_four`: there is a least squares solver, so there is such a client. -/
example (g : Garbage) : ∃ solve s outs s' out dbg, Trilat.LeastSquares solve ∧ Client [Trilat.exampleLevel] (rttCfg solve) ∧
    PlainZones (rttCfg solve).cs ∧ (rttCfg solve).cs.useAltitude = true ∧
    navigateAll (rttCfg solve) (init (rttCfg solve) g) [rangings] = .ok (s, outs) ∧
    navigate (rttCfg solve) s [ranging "d" (-60) (7 / 2) 2000] = .ok (s', [(out, dbg)]) ∧ out.status = .OK ∧
    out.posAltitude ≠ some 0 := by
  obtain ⟨solve, hls⟩ := Trilat.leastSquares_exists
  obtain ⟨s, outs, s', out, dbg, h1, h2, h3, -, h4⟩ := C101_altitude_wrong solve hls g
  exact ⟨solve, s, outs, s', out, dbg, hls, rttClient solve, rtt_settings, rfl, h1, h2, h3, by rw [h4]; norm_num⟩

end Verif.Nav
