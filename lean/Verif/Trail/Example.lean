import Verif.Nav.KnnExample
import Verif.Trail.Unique

/-!
# C132: a client with fingerprints and the default smoothing
-/

namespace Verif.Trail

open Verif.Levels Verif.Nav Verif.Floors
open Verif.Knn (Result)
open Verif.Track
open Knn.Witness2 (lvl rps fp)

/-- The settings of C113's example, with smoothing. -/
noncomputable def walkSettings : CommonSettings := { printSettings with useSmoothing := true }

theorem walk_settings : SmoothFingerprints walkSettings := by
  refine ⟨⟨?_, rfl, rfl, rfl, ?_⟩, ?_⟩
  · exact ⟨by constructor <;> simp [walkSettings, printSettings] <;> norm_num, by simp [walkSettings, printSettings]⟩
  · simp [walkSettings, printSettings]; norm_num
  · constructor <;> simp [walkSettings, printSettings]

/-- The client. -/
noncomputable def walkCfg : Cfg where
  env := printEnv
  cs := walkSettings
  levels := collect [lvl]
  noSignal := 35000
  noAction := 20000
  detector := .radiomap false (Knn.getLevelsRadiomaps (collect [lvl]))
  indoor := .knn (Knn.mkCfg printEnv.triSorts printEnv.rpSort (collect [lvl]) walkSettings)
  pre := Radio.mkCfg (collect [lvl]) walkSettings
  fusion := Fusion.fusionConfig walkSettings

theorem walkClient : Client [lvl] walkCfg where
  map := printClient.map
  settings := ⟨fun h => (by cases h), fun h => (by cases h)⟩
  sort := sortsBy_insertionSort _
  radioSorts := Radio.insertionSorts_lawful
  built := by
    refine ⟨[], ?_⟩
    unfold mkCfg createPositionEstimator
    rw [if_pos (by rfl)]
    simp [walkCfg, walkSettings, printSettings, createLevelEstimator]

theorem walk_windows (ms : List Measurement) : windows [lvl] walkCfg.cs ms = windows [lvl] printCfg.cs ms := rfl

theorem walk_closes (ms : List Measurement) (m : Measurement) : Closes [lvl] walkCfg.cs ms m ↔ Closes [lvl] printCfg.cs ms m := Iff.rfl

theorem walk_locates : Locates walkCfg.env.triSorts lvl walkCfg.cs printWindow := print_locates

/-- The only window of the example. -/
theorem walk_closed (t : Int) : closedWindows [lvl] walkCfg.cs (printSignals ++ [exAccel t]) = [(3000, printWindow)] := by
  have hna : ∀ ms, ¬ Closes [lvl] walkCfg.cs ms (exAccel t) := by rintro ms ⟨⟨d, hd, -⟩, -⟩; cases hd
  have h2 : ¬ Closes [lvl] walkCfg.cs [⟨.radio (signalOf "t1" (-70)), 1000⟩] ⟨.radio (signalOf "t2" (-60)), 1500⟩ := by
    rintro ⟨-, h⟩
    rw [walk_windows, show ([⟨.radio (signalOf "t1" (-70)), 1000⟩] : List Measurement) = [] ++ [⟨.radio (signalOf "t1" (-70)), 1000⟩] from rfl,
      windows_snoc, take_heard _ (print_heard (by norm_num) (by norm_num)), print_span] at h
    have hs : spanOf walkCfg.cs = 1000 := print_span
    rw [hs] at h
    simp [Windows.hear, windows] at h
  have h1 : ¬ Closes [lvl] walkCfg.cs [] ⟨.radio (signalOf "t1" (-70)), 1000⟩ := by
    rintro ⟨-, h⟩
    have hs : spanOf walkCfg.cs = 1000 := print_span
    rw [hs] at h
    simp [windows] at h
  obtain ⟨h3, h4⟩ := print_closes
  rw [← walk_closes] at h3
  rw [← walk_windows] at h4
  rw [closedWindows_snoc, if_neg (hna _)]
  rw [show printSignals = (([] ++ [⟨.radio (signalOf "t1" (-70)), 1000⟩]) ++ [⟨.radio (signalOf "t2" (-60)), 1500⟩]) ++
    [⟨.radio (signalOf "t3" (-80)), 3000⟩] from rfl]
  rw [closedWindows_snoc, closedWindows_snoc, closedWindows_snoc, closedWindows_nil, if_neg h1]
  rw [if_neg (by simpa using h2), if_pos (by simpa using h3)]
  have h4' : (windows [lvl] walkCfg.cs ([] ++ [⟨.radio (signalOf "t1" (-70)), 1000⟩] ++ [⟨.radio (signalOf "t2" (-60)), 1500⟩] ++
    [⟨.radio (signalOf "t3" (-80)), 3000⟩])).closed = some (3000, printWindow) := h4
  rw [h4']
  rfl

theorem walk_box {p : Geo.XYPoint} (h : PlaceIn walkCfg.env.triSorts lvl walkCfg.cs printWindow p) :
    Estim.Box.Covers lvl.geometry.boundingBox p := by
  obtain ⟨avg, h3, h4⟩ := h
  obtain ⟨a, b, d, rfl, e1, e2, e3, e4, e5, e6⟩ := print_averages h3
  refine C113_in_box rfl h4 ?_ ⟨_, print_triangle, Triang.Example.pa, by simp [Triang.Triangle.corners], ?_⟩ ?_
  · constructor
    · intro f hf
      have : f.stat = Knn.Witness.st := by
        simp only [Knn.levelRadiomap, lvl, mkRadiomap, rps, fp, List.mem_flatMap, List.mem_cons, List.not_mem_nil, or_false] at hf
        obtain ⟨rp, hrp, hf⟩ := hf
        rcases hrp with rfl | rfl | rfl | rfl <;> simp at hf <;> rcases hf with rfl | rfl | rfl <;> rfl
      rw [this]
      simp only [Knn.Witness.st]
      norm_num
    · intro m hm
      simp only [List.mem_cons, List.not_mem_nil, or_false] at hm
      rcases hm with rfl | rfl | rfl <;> [rw [e4]; rw [e5]; rw [e6]] <;> norm_num
  · have hr : Knn.levelRadiomap lvl = [⟨"t1", "a", Knn.Witness.st⟩, ⟨"t2", "a", Knn.Witness.st⟩, ⟨"t3", "a", Knn.Witness.st⟩,
      ⟨"t1", "b", Knn.Witness.st⟩, ⟨"t2", "b", Knn.Witness.st⟩, ⟨"t3", "b", Knn.Witness.st⟩,
      ⟨"t1", "c", Knn.Witness.st⟩, ⟨"t2", "c", Knn.Witness.st⟩, ⟨"t3", "c", Knn.Witness.st⟩,
      ⟨"t1", "d", Knn.Witness.st⟩, ⟨"t2", "d", Knn.Witness.st⟩, ⟨"t3", "d", Knn.Witness.st⟩] := rfl
    rw [hr]
    simp [Knn.matched, e1, e2, e3, Triang.Example.pa]
  · intro rp hrp
    simp only [lvl, mkRadiomap, rps, List.mem_cons, List.not_mem_nil, or_false] at hrp
    rcases hrp with rfl | rfl | rfl | rfl <;> simp [Estim.Box.Covers, lvl] <;> norm_num

/-- The place of the window is determined: reference points with different ids, signals with one power. -/
theorem walk_unique {p q : Geo.XYPoint} (hp : PlaceIn walkCfg.env.triSorts lvl walkCfg.cs printWindow p)
    (hq : PlaceIn walkCfg.env.triSorts lvl walkCfg.cs printWindow q) : p = q := by
  refine C132_place_unique ?_ ?_ hp hq
  · simp [lvl, mkRadiomap, rps]
  · intro m hm m' hm' _
    simp only [printWindow, List.mem_cons, List.not_mem_nil, or_false] at hm hm'
    rcases hm with rfl | rfl | rfl <;> rcases hm' with rfl | rfl | rfl <;> rfl

/-- **C132** is about possible histories: after the three signals comes an accelerometer message after `k` milliseconds.  For
five seconds the client shows the place of the window, rounded down to centimetres, afterwards it answers NO_SOLUTION. -/
theorem C132_example (g : Garbage) (k : Int) (hk : 0 ≤ k) (hk' : k < 35000) :
    ∃ s outs s' out dbg, navigateAll walkCfg (init walkCfg g) [printSignals] = .ok (s, outs) ∧
      navigate walkCfg s [exAccel (3000 + k)] = .ok (s', [(out, dbg)]) ∧
      PlaceIn walkCfg.env.triSorts lvl walkCfg.cs printWindow dbg.indoorPosition ∧
      Estim.Box.Covers lvl.geometry.boundingBox dbg.indoorPosition ∧
      (k < 5000 → out.status = .OK ∧ out.posLevel = "L" ∧ out.provider = some .INDOOR ∧ out.posR = some 1 ∧
        (⟨out.posLatitude, out.posLongitude⟩ : Geo.GeoPoint) =
          Geo.localToGps (shown lvl.geometry.boundingBox dbg.indoorPosition) lvl.bindingPoint) ∧
      (5000 ≤ k → out.status = .NO_SOLUTION) := by
  obtain ⟨s, outs, h1, -⟩ := C79_total walkClient g [printSignals]
  have hrec : records printSignals = printSignals := records_ordered _ (by simp [Ordered, printSignals])
  have htk : taken [printSignals] = printSignals := by simp [taken, hrec]
  have hna : ∀ t, ¬ Heard [lvl] walkCfg.cs (exAccel t) := by rintro t ⟨d, hd, -⟩; cases hd
  have hdead : ⌊1000 * walkCfg.cs.deadReckoningTime⌋ = 5000 := by
    have : (1000 : ℝ) * walkCfg.cs.deadReckoningTime = ((5000 : Int) : ℝ) := by
      simp [walkCfg, walkSettings, printSettings]; norm_num
    rw [this, Int.floor_intCast]
  have hcw := walk_closed (3000 + k)
  have hlw := lastWindow_of_last (P := Locates walkCfg.env.triSorts lvl walkCfg.cs) (w := (3000, printWindow))
    (by rw [hcw]; rfl) walk_locates
  rw [← htk] at hcw hlw
  obtain ⟨s', out, dbg, p, h2, h3, h5, h6, h7⟩ := C132_answer walkClient walk_settings edgeSort_sorts.perm
    (fun l => List.Perm.refl _) g [printSignals] h1 (exAccel (3000 + k))
    (by
      rw [htk]
      intro e he
      simp only [printSignals, List.mem_append, List.mem_cons, List.not_mem_nil, or_false] at he
      rcases he with (rfl | rfl | rfl) | rfl <;> simp only [exAccel] <;> omega)
    ⟨[⟨.radio (signalOf "t1" (-70)), 1000⟩, ⟨.radio (signalOf "t2" (-60)), 1500⟩], ⟨.radio (signalOf "t3" (-80)), 3000⟩,
      [exAccel (3000 + k)], by rw [htk]; rfl, ⟨_, rfl, print_heard (by norm_num) (by norm_num)⟩,
      (by intro e he; rw [List.mem_singleton] at he; rw [he]; exact hna _),
      (by change 3000 + k < 3000 + 1000 * 35; omega)⟩ hlw
  have hbox := walk_box h3
  have hage : (exAccel (3000 + k)).ts - 3000 = k := by simp [exAccel]
  rw [hage, hdead] at h6 h7
  refine ⟨s, outs, s', out, dbg, h1, h2, by rw [h5]; exact h3, by rw [h5]; exact hbox, fun hlt => ?_, fun hge => ?_⟩
  · obtain ⟨r1, r2, r3, ⟨fs, kk, a1, a2, a3, a4⟩, r5⟩ := h6 ⟨hbox, hlt⟩
    refine ⟨r1, r2, r3, r5, ?_⟩
    rw [hcw] at a1
    have hfs := fixesOf_same (p := p) ⟨hbox, by
      intro w hw
      rw [List.mem_singleton] at hw
      rw [hw]
      exact ⟨walk_locates, fun q hq => walk_unique hq h3⟩⟩ a1
    rw [hfs] at a3
    have a3 : some (Motion.rest ⟨3000, p⟩) = some kk := a3
    rw [Option.some.injEq] at a3
    rw [a4, ← a3, h5]
    rfl
  · exact (h7 (fun h => absurd h.2 (by omega))).2.2 (by rintro ⟨t, w, hcl, -⟩; exact hna _ hcl.1.1)

/-- The averages of a window depend on what is heard, not on when. -/
theorem mapAverages_congr {lv : Level} {w w' : List RadioMeasurement} (h : w.map (fun m : RadioMeasurement => m.data) = w'.map (fun m : RadioMeasurement => m.data))
    {avg : List RadioData} (ha : MapAverages lv w avg) : MapAverages lv w' avg := by
  have hm : ∀ P : RadioData → Prop, (∃ m ∈ w, P m.data) ↔ ∃ m ∈ w', P m.data := by
    intro P
    have e : ∀ v : List RadioMeasurement, (∃ m ∈ v, P m.data) ↔ ∃ d ∈ v.map (fun m : RadioMeasurement => m.data), P d := by
      intro v; simp
    rw [e, e, h]
  have hr : ∀ id, meanRssi w id = meanRssi w' id := by
    intro id
    have e : ∀ v : List RadioMeasurement, (Radio.ofTransmitter id v).map (·.data.rssi) =
        ((v.map (fun m : RadioMeasurement => m.data)).filter (fun d => d.id = id)).map RadioData.rssi := by
      intro v
      simp [Radio.ofTransmitter, List.filter_map, Function.comp_def]
    unfold meanRssi
    rw [e, e, h]
  refine ⟨ha.sorted, fun id => ?_, fun e he => ?_, fun e he => ?_⟩
  · rw [ha.ids id, hm (fun d => d.id = id)]
  · rw [ha.rssi e he, hr]
  · exact (hm (fun d => d.id = e.id ∧ d.power = e.power)).mp (ha.power e he)

/-- Three more signals, the same as before; the last closes the window that was opened at `T`. -/
noncomputable def round (T : Int) : List Measurement :=
  [⟨.radio (signalOf "t1" (-70)), T + 300⟩, ⟨.radio (signalOf "t2" (-60)), T + 600⟩, ⟨.radio (signalOf "t3" (-80)), T + 2000⟩]

noncomputable def roundWindow (T : Int) : List RadioMeasurement :=
  [⟨signalOf "t1" (-70), T + 300⟩, ⟨signalOf "t2" (-60), T + 600⟩, ⟨signalOf "t3" (-80), T + 2000⟩]

theorem round_windows {ms : List Measurement} {T : Int} {cl : Option (Int × List RadioMeasurement)}
    (h : windows [lvl] walkCfg.cs ms = ⟨some T, [], cl⟩) :
    windows [lvl] walkCfg.cs (ms ++ round T) = ⟨some (T + 2000), [], some (T + 2000, roundWindow T)⟩ ∧
    closedWindows [lvl] walkCfg.cs (ms ++ round T) = closedWindows [lvl] walkCfg.cs ms ++ [(T + 2000, roundWindow T)] := by
  have hs : spanOf walkCfg.cs = 1000 := print_span
  have hh : ∀ (id : String) (r : ℝ) (t : Int), -100 < r → r < 0 → ∀ w : Windows,
      w.take [lvl] walkCfg.cs ⟨.radio (signalOf id r), t⟩ = w.hear 1000 ⟨signalOf id r, t⟩ := by
    intro id r t h1 h2 w
    have h := take_heard (ls := [lvl]) (cs := walkCfg.cs) (t := t) w
      (show Radio.Admissible [lvl] walkCfg.cs (signalOf id r) from print_heard h1 h2)
    rw [hs] at h
    exact h
  have a1 : windows [lvl] walkCfg.cs (ms ++ [⟨.radio (signalOf "t1" (-70)), T + 300⟩]) =
      ⟨some T, [⟨signalOf "t1" (-70), T + 300⟩], cl⟩ := by
    rw [windows_snoc, hh _ _ _ (by norm_num) (by norm_num), h]
    simp [Windows.hear]
  have a2 : windows [lvl] walkCfg.cs (ms ++ [⟨.radio (signalOf "t1" (-70)), T + 300⟩] ++ [⟨.radio (signalOf "t2" (-60)), T + 600⟩]) =
      ⟨some T, [⟨signalOf "t1" (-70), T + 300⟩, ⟨signalOf "t2" (-60), T + 600⟩], cl⟩ := by
    rw [windows_snoc, hh _ _ _ (by norm_num) (by norm_num), a1]
    simp [Windows.hear]
  have a3 : windows [lvl] walkCfg.cs (ms ++ [⟨.radio (signalOf "t1" (-70)), T + 300⟩] ++ [⟨.radio (signalOf "t2" (-60)), T + 600⟩] ++
      [⟨.radio (signalOf "t3" (-80)), T + 2000⟩]) = ⟨some (T + 2000), [], some (T + 2000, roundWindow T)⟩ := by
    rw [windows_snoc, hh _ _ _ (by norm_num) (by norm_num), a2]
    simp [Windows.hear, roundWindow]
  have e : ms ++ round T = ms ++ [⟨.radio (signalOf "t1" (-70)), T + 300⟩] ++ [⟨.radio (signalOf "t2" (-60)), T + 600⟩] ++
      [⟨.radio (signalOf "t3" (-80)), T + 2000⟩] := by simp [round]
  refine ⟨by rw [e, a3], ?_⟩
  have c1 : ¬ Closes [lvl] walkCfg.cs ms ⟨.radio (signalOf "t1" (-70)), T + 300⟩ := by
    rintro ⟨-, h'⟩; rw [h, hs] at h'; simp at h'
  have c2 : ¬ Closes [lvl] walkCfg.cs (ms ++ [⟨.radio (signalOf "t1" (-70)), T + 300⟩]) ⟨.radio (signalOf "t2" (-60)), T + 600⟩ := by
    rintro ⟨-, h'⟩; rw [a1, hs] at h'; simp at h'
  have c3 : Closes [lvl] walkCfg.cs (ms ++ [⟨.radio (signalOf "t1" (-70)), T + 300⟩] ++ [⟨.radio (signalOf "t2" (-60)), T + 600⟩])
      ⟨.radio (signalOf "t3" (-80)), T + 2000⟩ :=
    ⟨⟨_, rfl, print_heard (by norm_num) (by norm_num)⟩, by rw [a2, hs]; simp⟩
  rw [e, closedWindows_snoc, closedWindows_snoc, closedWindows_snoc, if_neg c1, if_neg c2, if_pos c3, a3]
  simp

/-- The same three signals, `n + 1` times. -/
noncomputable def stays : ℕ → List Measurement
  | 0 => printSignals
  | n + 1 => stays n ++ round (3000 + 2000 * n)

theorem stays_windows (n : ℕ) : (∃ cl, windows [lvl] walkCfg.cs (stays n) = ⟨some (3000 + 2000 * n), [], cl⟩) ∧
    ∃ ws, closedWindows [lvl] walkCfg.cs (stays n) = ws ∧ ws.map (·.1) = (List.range (n + 1)).map (fun k : ℕ => 3000 + 2000 * (k : Int)) ∧
      ∀ w ∈ ws, w.2.map (fun m : RadioMeasurement => m.data) = printWindow.map (fun m : RadioMeasurement => m.data) := by
  induction n with
  | zero =>
    refine ⟨⟨some (3000, printWindow), ?_⟩, [(3000, printWindow)], ?_, by simp, by simp⟩
    · have h4 := print_two
      rw [← walk_windows] at h4
      have : stays 0 = [⟨.radio (signalOf "t1" (-70)), 1000⟩, ⟨.radio (signalOf "t2" (-60)), 1500⟩] ++
        [⟨.radio (signalOf "t3" (-80)), 3000⟩] := rfl
      rw [this, windows_snoc, h4, take_heard _ (show Radio.Admissible [lvl] walkCfg.cs (signalOf "t3" (-80)) from print_heard (by norm_num) (by norm_num)),
        show spanOf walkCfg.cs = 1000 from print_span]
      simp [Windows.hear, printWindow]
    · have h := walk_closed 4000
      rw [closedWindows_snoc, if_neg (by rintro ⟨⟨d, hd, -⟩, -⟩; cases hd)] at h
      rw [Option.toList_none, List.append_nil] at h
      exact h
  | succ n ih =>
    obtain ⟨⟨cl, h1⟩, ws, h2, h3, h4⟩ := ih
    obtain ⟨r1, r2⟩ := round_windows h1
    refine ⟨⟨some (3000 + 2000 * (n : Int) + 2000, roundWindow (3000 + 2000 * n)), ?_⟩, _, r2, ?_, ?_⟩
    · change windows _ _ (stays n ++ round (3000 + 2000 * n)) = _
      have e : (3000 + 2000 * ((n + 1 : ℕ) : Int)) = 3000 + 2000 * (n : Int) + 2000 := by push_cast; ring
      rw [r1, e]
    · rw [h2, List.map_append, h3, List.range_succ (n := n + 1), List.map_append]
      simp
      ring
    · intro w hw
      rw [h2, List.mem_append, List.mem_singleton] at hw
      rcases hw with hw | rfl
      · exact h4 w hw
      · rfl

theorem stays_ordered (n : ℕ) : Ordered (stays n) ∧ (∀ e ∈ stays n, 0 < e.ts ∧ e.ts ≤ 3000 + 2000 * n) ∧
    ∃ before, stays n = before ++ [⟨.radio (signalOf "t3" (-80)), 3000 + 2000 * n⟩] := by
  induction n with
  | zero =>
    refine ⟨by simp [Ordered, stays, printSignals], ?_, [⟨.radio (signalOf "t1" (-70)), 1000⟩,
      ⟨.radio (signalOf "t2" (-60)), 1500⟩], by simp [stays, printSignals]⟩
    intro e he
    simp only [stays, printSignals, List.mem_cons, List.not_mem_nil, or_false] at he
    rcases he with rfl | rfl | rfl <;> simp
  | succ n ih =>
    obtain ⟨h1, h2, -⟩ := ih
    refine ⟨?_, ?_, stays n ++ [⟨.radio (signalOf "t1" (-70)), 3000 + 2000 * n + 300⟩,
      ⟨.radio (signalOf "t2" (-60)), 3000 + 2000 * n + 600⟩], ?_⟩
    · unfold Ordered at h1 ⊢
      change List.Pairwise _ (stays n ++ round (3000 + 2000 * n))
      refine List.pairwise_append.mpr ⟨h1, by simp [round], ?_⟩
      intro a ha b hb
      have := (h2 a ha).2
      simp only [round, List.mem_cons, List.not_mem_nil, or_false] at hb
      rcases hb with rfl | rfl | rfl <;> dsimp only <;> omega
    · intro e he
      change e ∈ stays n ++ round (3000 + 2000 * n) at he
      rw [List.mem_append] at he
      rcases he with he | he
      · have := h2 e he
        push_cast
        omega
      · simp only [round, List.mem_cons, List.not_mem_nil, or_false] at he
        rcases he with rfl | rfl | rfl <;> push_cast <;> omega
    · change stays n ++ round (3000 + 2000 * n) = _
      simp [round]
      ring

/-- **C132** comes to rest on possible histories: there are a place, a rate below one and a constant such that, however many times the
three signals are heard, the client then answers OK with a place at most the constant times the power of the rate away, plus one
centimetre. -/
theorem C132_settles_example (g : Garbage) : ∃ (p : Geo.XYPoint) (γ C : ℝ), 0 ≤ γ ∧ γ < 1 ∧ ∀ n : ℕ, ∃ s outs s' out dbg q,
    navigateAll walkCfg (init walkCfg g) [stays n] = .ok (s, outs) ∧
    navigate walkCfg s [exAccel (3000 + 2000 * n)] = .ok (s', [(out, dbg)]) ∧ out.status = .OK ∧ out.posLevel = "L" ∧
    (⟨out.posLatitude, out.posLongitude⟩ : Geo.GeoPoint) = Geo.localToGps q lvl.bindingPoint ∧
    |q.x - p.x| ≤ C * γ ^ (n + 1) + 1 / 100 ∧ |q.y - p.y| ≤ C * γ ^ (n + 1) + 1 / 100 := by
  obtain ⟨γ, g0, g1, hset⟩ := C132_settles walkClient walk_settings edgeSort_sorts.perm (fun l => List.Perm.refl _)
    (lo := 0) (hi := 4 / 3) (by norm_num) (by norm_num) C123_settles_default.1 C123_settles_default.2
  obtain ⟨-, -, -, -, dbg, -, -, hpl, hbox, -, -⟩ := C132_example g 0 le_rfl (by norm_num)
  generalize dbg.indoorPosition = p at hpl hbox
  have hnil : closedWindows [lvl] walkCfg.cs (taken []) = [] := by simp [taken, closedWindows_nil]
  obtain ⟨C, -, hC⟩ := hset g [] [] p (by rw [hnil]; exact fixesOf_nil _ _ _) (by
    rw [hnil]
    rintro fs' ⟨os, h1, rfl⟩
    cases h1
    rfl)
  refine ⟨p, γ, C, g0, g1, fun n => ?_⟩
  obtain ⟨s, outs, h1, -⟩ := C79_total walkClient g [stays n]
  obtain ⟨ho, hts, before, hb⟩ := stays_ordered n
  have htk : taken [stays n] = stays n := by simp [taken, records_ordered _ ho]
  have hna : ∀ t, ¬ Heard [lvl] walkCfg.cs (exAccel t) := by rintro t ⟨d, hd, -⟩; cases hd
  obtain ⟨-, ws, w1, w2, w3⟩ := stays_windows n
  have hlen : ws.length = n + 1 := by simpa using congrArg List.length w2
  have hdead : ⌊1000 * walkCfg.cs.deadReckoningTime⌋ = 5000 := by
    have : (1000 : ℝ) * walkCfg.cs.deadReckoningTime = ((5000 : Int) : ℝ) := by
      simp [walkCfg, walkSettings, printSettings]; norm_num
    rw [this, Int.floor_intCast]
  have hall : AllAt walkCfg.env.triSorts lvl walkCfg.cs p ws := by
    refine ⟨hbox, fun w hw => ?_⟩
    have e := w3 w hw
    refine ⟨?_, fun q hq => ?_⟩
    · obtain ⟨⟨ids, i1, i2, i3⟩, l2⟩ := walk_locates
      refine ⟨⟨ids, i1, i2, fun id hid => ?_⟩, l2⟩
      obtain ⟨j1, m, j2, j3⟩ := i3 id hid
      refine ⟨j1, ?_⟩
      have : m.data ∈ w.2.map (fun m : RadioMeasurement => m.data) := by rw [e]; exact List.mem_map_of_mem j2
      obtain ⟨m', k1, k2⟩ := List.mem_map.mp this
      exact ⟨m', k1, by rw [k2]; exact j3⟩
    · obtain ⟨avg, q1, q2⟩ := hq
      exact walk_unique ⟨avg, mapAverages_congr e q1, q2⟩ hpl
  have hlast : ∀ w, ws.getLast? = some w → w.1 = 3000 + 2000 * n := by
    intro w hw
    have := congrArg List.getLast? w2
    rw [List.getLast?_map, hw, List.range_succ, List.map_append] at this
    simpa using this
  have h1' : navigateAll walkCfg (init walkCfg g) ([] ++ [stays n]) = .ok (s, outs) := h1
  obtain ⟨s', out, dbg', q, r1, r2, r3, r4, r5, r6⟩ := hC [stays n] (exAccel (3000 + 2000 * n)) s outs ws h1'
    (by
      rw [List.nil_append, htk]
      intro e he
      rw [List.mem_append, List.mem_singleton] at he
      rcases he with he | rfl
      · exact (hts e he).1
      · simp only [exAccel]; omega)
    ⟨before, ⟨.radio (signalOf "t3" (-80)), 3000 + 2000 * n⟩, [exAccel (3000 + 2000 * n)],
      (by rw [List.nil_append, htk, hb]; simp), ⟨_, rfl, print_heard (by norm_num) (by norm_num)⟩,
      (by intro e he; rw [List.mem_singleton] at he; rw [he]; exact hna _),
      (by change 3000 + 2000 * (n : Int) < 3000 + 2000 * n + 1000 * 35; omega)⟩
    (by
      rw [List.nil_append, htk, closedWindows_snoc, if_neg (fun h => hna _ h.1), w1, hnil]
      simp) hall
    (by
      rw [w2]
      rintro bef a b c aft hab
      have hl : bef.length + 2 < (List.range (n + 1)).length := by
        have := congrArg List.length hab
        simp only [List.length_map, List.length_append, List.length_cons, Option.toList, List.getLast?_nil, Option.map_none,
          List.length_nil] at this
        omega
      have get : ∀ i, i < n + 1 → (bef ++ a :: b :: c :: aft)[i]? = some (3000 + 2000 * (i : Int)) := by
        intro i hi
        rw [← hab]
        simp [List.getElem?_map, List.getElem?_range hi]
      rw [List.length_range] at hl
      have ga := get bef.length (by omega)
      have gb := get (bef.length + 1) (by omega)
      have gc := get (bef.length + 2) (by omega)
      simp at ga gb gc
      rw [ga, gb, gc]
      push_cast
      constructor <;> ring_nf <;> norm_num)
    (by
      intro w hw
      rw [hlast w hw, hdead]
      simp [exAccel])
    (by intro h; rw [h] at hlen; simp at hlen)
  rw [hlen] at r5 r6
  exact ⟨s, outs, s', out, dbg', q, h1, r1, r2, r3, r4, r5, r6⟩

end Verif.Trail
