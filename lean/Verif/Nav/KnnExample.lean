import Verif.Nav.KnnProps

/-!
# A client with fingerprints

C113 is about possible histories: four reference points, three transmitters and a window with all three.
-/

namespace Verif.Nav

open Verif.Levels
open Verif.Knn (Result)
open Knn.Witness2 (lvl rps fp)

/-- A correct sort of edges. -/
noncomputable def edgeSort : List Triang.Edge → List Triang.Edge := (stdSort_exists Triang.Edge.lt).choose

theorem edgeSort_sorts : StdSort Triang.Edge.lt edgeSort := (stdSort_exists Triang.Edge.lt).choose_spec

/-- External algorithms, with that sort. -/
noncomputable def printEnv : Env := { exEnv with triSorts := ⟨edgeSort, id⟩ }

/-- The default settings for fingerprints, without smoothing; three transmitters suffice, and they need not be on the map. -/
noncomputable def printSettings : CommonSettings :=
  { useAlgorithm := .KNN, useSmoothing := false, useUnknownTransmitters := true, minNumOfMeasurementsForPositionCalculation := 3 }

theorem print_settings : PlainFingerprints printSettings := by
  refine ⟨⟨?_, ?_⟩, ?_, ?_, ?_⟩
  · exact ⟨by constructor <;> simp [printSettings] <;> norm_num, by simp [printSettings]⟩
  all_goals simp [printSettings]

/-- The client. -/
noncomputable def printCfg : Cfg where
  env := printEnv
  cs := printSettings
  levels := collect [lvl]
  noSignal := 35000
  noAction := 20000
  detector := .radiomap false (Knn.getLevelsRadiomaps (collect [lvl]))
  indoor := .knn (Knn.mkCfg printEnv.triSorts printEnv.rpSort (collect [lvl]) printSettings)
  pre := Radio.mkCfg (collect [lvl]) printSettings
  fusion := Fusion.fusionConfig printSettings

theorem printClient : Client [lvl] printCfg where
  map := by
    refine ⟨by simp, ?_, ?_, ?_⟩ <;> intro l hl <;> rw [List.mem_singleton] at hl <;> rw [hl]
    · simp [lvl]
    · rfl
    · exact ⟨[], rfl⟩
  settings := ⟨fun h => (by cases h), fun h => (by cases h)⟩
  sort := sortsBy_insertionSort _
  radioSorts := Radio.insertionSorts_lawful
  built := by
    refine ⟨[], ?_⟩
    unfold mkCfg createPositionEstimator
    rw [if_pos (by rfl)]
    simp [printCfg, printSettings, createLevelEstimator]

/-- A signal. -/
noncomputable def signalOf (id : String) (r : ℝ) : RadioData := ⟨.BEACON, id, r, 0, 0, 0⟩

theorem print_heard {id : String} {r : ℝ} (h1 : -100 < r) (h2 : r < 0) : Radio.Admissible [lvl] printCfg.cs (signalOf id r) := by
  refine ⟨?_, ?_, ?_, .inl rfl⟩
  · simp [Radio.TypeEnabled, printCfg, printSettings, signalOf]
  · intro _; exact ⟨h1, h2⟩
  · intro h; exact absurd rfl h

/-- The signals of the example. -/
noncomputable def printSignals : List Measurement :=
  [⟨.radio (signalOf "t1" (-70)), 1000⟩, ⟨.radio (signalOf "t2" (-60)), 1500⟩, ⟨.radio (signalOf "t3" (-80)), 3000⟩]

/-- Their window. -/
noncomputable def printWindow : List RadioMeasurement :=
  [⟨signalOf "t1" (-70), 1000⟩, ⟨signalOf "t2" (-60), 1500⟩, ⟨signalOf "t3" (-80), 3000⟩]

theorem print_span : spanOf printCfg.cs = 1000 := by simp [spanOf, printCfg, printSettings]

theorem print_two : windows [lvl] printCfg.cs [⟨.radio (signalOf "t1" (-70)), 1000⟩, ⟨.radio (signalOf "t2" (-60)), 1500⟩] =
    ⟨some 1000, [⟨signalOf "t1" (-70), 1000⟩, ⟨signalOf "t2" (-60), 1500⟩], none⟩ := by
  rw [show ([⟨.radio (signalOf "t1" (-70)), 1000⟩, ⟨.radio (signalOf "t2" (-60)), 1500⟩] : List Measurement) =
    ([] ++ [⟨.radio (signalOf "t1" (-70)), 1000⟩]) ++ [⟨.radio (signalOf "t2" (-60)), 1500⟩] from rfl, windows_snoc, windows_snoc,
    take_heard _ (print_heard (by norm_num) (by norm_num)), take_heard _ (print_heard (by norm_num) (by norm_num)), print_span]
  simp [Windows.hear, windows]

theorem print_closes : ClosesWith [lvl] printCfg.cs
    [⟨.radio (signalOf "t1" (-70)), 1000⟩, ⟨.radio (signalOf "t2" (-60)), 1500⟩] ⟨.radio (signalOf "t3" (-80)), 3000⟩ 3000 printWindow := by
  refine ⟨⟨⟨_, rfl, print_heard (by norm_num) (by norm_num)⟩, ?_⟩, ?_⟩
  · rw [print_two, print_span]; simp
  · rw [windows_snoc, print_two, take_heard _ (print_heard (by norm_num) (by norm_num)), print_span]
    simp [Windows.hear, printWindow]

theorem print_onMap (tx : String) (h : tx = "t1" ∨ tx = "t2" ∨ tx = "t3") : OnMap lvl tx := by
  refine ⟨⟨"a", ⟨100, 100⟩, fp⟩, by simp [lvl, mkRadiomap, rps], (tx, Knn.Witness.st), ?_, rfl⟩
  rcases h with rfl | rfl | rfl <;> simp [fp]

theorem print_triangle : (⟨Triang.Example.pc, Triang.Example.pa, Triang.Example.pb⟩ : Triang.Triangle) ∈
    Knn.levelTriangles printEnv.triSorts lvl := by
  have h := Triang.Example.triangulation printEnv.triSorts edgeSort_sorts (fun l => List.Perm.refl _)
  have h6 : Knn.longerSide lvl.geometry.boundingBox = 6 := by simp [Knn.longerSide, lvl]; norm_num
  unfold Knn.levelTriangles
  rw [h6]
  exact h

theorem print_locates : Locates printCfg.env.triSorts lvl printCfg.cs printWindow := by
  refine ⟨⟨["t1", "t2", "t3"], by simp, by simp [printCfg, printSettings], ?_⟩, fun _ => ⟨?_, List.ne_nil_of_mem print_triangle⟩⟩
  · intro id hid
    simp only [List.mem_cons, List.not_mem_nil, or_false] at hid
    refine ⟨print_onMap id hid, ?_⟩
    simp only [printWindow, signalOf, List.mem_cons, List.not_mem_nil, or_false, exists_eq_or_imp, exists_eq_left]
    rcases hid with rfl | rfl | rfl <;> simp
  · simp [lvl, mkRadiomap, rps]

/-- The averages of the window. -/
theorem print_averages {avg : List RadioData} (h : MapAverages lvl printWindow avg) :
    ∃ a b d, avg = [a, b, d] ∧ a.id = "t1" ∧ b.id = "t2" ∧ d.id = "t3" ∧ a.rssi = -70 ∧ b.rssi = -60 ∧ d.rssi = -80 := by
  have hids : avg.map RadioData.id = ["t1", "t2", "t3"] := by
    have hs : (["t1", "t2", "t3"] : List String).Pairwise (· < ·) := by
      simp only [List.pairwise_cons, List.mem_cons, List.not_mem_nil, or_false, forall_eq_or_imp, forall_eq, List.Pairwise.nil,
        and_true, IsEmpty.forall_iff, implies_true]
      refine ⟨⟨?_, ?_⟩, ?_⟩ <;> exact String.lt_iff_toList_lt.mpr (by decide)
    refine List.Perm.eq_of_pairwise (le := (· < ·)) (fun a b _ _ h1 h2 => absurd h2 (lt_asymm h1)) h.sorted hs ?_
    refine (List.perm_ext_iff_of_nodup (h.sorted.imp (fun h => ne_of_lt h)) (hs.imp (fun h => ne_of_lt h))).mpr ?_
    intro id
    rw [List.mem_map]
    refine (h.ids id).trans ?_
    constructor
    · rintro ⟨-, m, hm, rfl⟩
      simp only [printWindow, signalOf, List.mem_cons, List.not_mem_nil, or_false] at hm
      rcases hm with rfl | rfl | rfl <;> simp
    · intro hid
      simp only [List.mem_cons, List.not_mem_nil, or_false] at hid
      refine ⟨print_onMap id hid, ?_⟩
      simp only [printWindow, signalOf, List.mem_cons, List.not_mem_nil, or_false, exists_eq_or_imp, exists_eq_left]
      rcases hid with rfl | rfl | rfl <;> simp
  obtain ⟨a, b, d, rfl⟩ := List.length_eq_three.mp (show avg.length = 3 by simpa using congrArg List.length hids)
  · simp only [List.map_cons, List.map_nil, List.cons.injEq, and_true] at hids
    obtain ⟨e1, e2, e3⟩ := hids
    refine ⟨a, b, d, rfl, e1, e2, e3, ?_, ?_, ?_⟩
    · rw [h.rssi a (by simp), e1]; simp [meanRssi, Radio.ofTransmitter, printWindow, signalOf, Radio.mean]
    · rw [h.rssi b (by simp), e2]; simp [meanRssi, Radio.ofTransmitter, printWindow, signalOf, Radio.mean]
    · rw [h.rssi d (by simp), e3]; simp [meanRssi, Radio.ofTransmitter, printWindow, signalOf, Radio.mean]

/-- **C113** is about possible histories: after the three signals comes an accelerometer message after `k` milliseconds.  For
five seconds the client reports a place in the box of the floor, afterwards NO_SOLUTION. -/
theorem C113_example (g : Garbage) (k : Int) (hk : 0 ≤ k) (hk' : k < 35000) :
    ∃ s outs s' out dbg, navigateAll printCfg (init printCfg g) [printSignals] = .ok (s, outs) ∧
      navigate printCfg s [exAccel (3000 + k)] = .ok (s', [(out, dbg)]) ∧
      Estim.Box.Covers lvl.geometry.boundingBox dbg.indoorPosition ∧
      (k < 5000 → out.status = .OK ∧ out.posLevel = "L" ∧ out.provider = some .INDOOR ∧ out.posR = some 1) ∧
      (5000 ≤ k → out.status = .NO_SOLUTION) := by
  obtain ⟨s, outs, h1, -⟩ := C79_total printClient g [printSignals]
  have hrec : records printSignals = printSignals := records_ordered _ (by simp [Ordered, printSignals])
  have htk : taken [printSignals] = printSignals := by simp [taken, hrec]
  have hna : ∀ t, ¬ Heard [lvl] printCfg.cs (exAccel t) := by rintro t ⟨d, hd, -⟩; cases hd
  have hdead : ⌊1000 * printCfg.cs.deadReckoningTime⌋ = 5000 := by
    have : (1000 : ℝ) * printCfg.cs.deadReckoningTime = ((5000 : Int) : ℝ) := by
      simp [printCfg, printSettings]; norm_num
    rw [this, Int.floor_intCast]
  obtain ⟨s', out, dbg, avg, p, h2, h3, h4, h5, h6, h7⟩ := C113_place printClient print_settings edgeSort_sorts.perm
    (fun l => List.Perm.refl _) g [printSignals] h1 (exAccel (3000 + k))
    (by
      rw [htk]
      intro e he
      simp only [printSignals, List.mem_append, List.mem_cons, List.not_mem_nil, or_false] at he
      rcases he with (rfl | rfl | rfl) | rfl <;> simp only [exAccel] <;> omega)
    ⟨[⟨.radio (signalOf "t1" (-70)), 1000⟩, ⟨.radio (signalOf "t2" (-60)), 1500⟩], ⟨.radio (signalOf "t3" (-80)), 3000⟩,
      [exAccel (3000 + k)], by rw [htk]; rfl, ⟨_, rfl, print_heard (by norm_num) (by norm_num)⟩,
      (by intro e he; rw [List.mem_singleton] at he; rw [he]; exact hna _),
      (by change 3000 + k < 3000 + 1000 * 35; omega)⟩ (t0 := 3000) (win := printWindow)
    ⟨[⟨.radio (signalOf "t1" (-70)), 1000⟩, ⟨.radio (signalOf "t2" (-60)), 1500⟩], ⟨.radio (signalOf "t3" (-80)), 3000⟩,
      [exAccel (3000 + k)], by rw [htk]; rfl, print_closes, print_locates, by
        intro a e b hab t' w hcl
        have : a = [] ∧ e = exAccel (3000 + k) := by
          cases a with
          | nil => simp only [List.nil_append, List.cons.injEq] at hab; exact ⟨rfl, hab.1.symm⟩
          | cons x a => simp at hab
        rw [this.2] at hcl
        exact absurd hcl.1.1 (hna _)⟩
  have hbox : Estim.Box.Covers lvl.geometry.boundingBox p := by
    obtain ⟨a, b, d, rfl, e1, e2, e3, e4, e5, e6⟩ := print_averages h3
    refine C113_in_box rfl h4 ?_ ⟨_, print_triangle, Triang.Example.pa, by simp [Triang.Triangle.corners], ?_⟩ ?_
    · constructor
      · intro f hf
        have : f.stat = Knn.Witness.st := by
          simp only [Knn.levelRadiomap, lvl, mkRadiomap, rps, fp, List.mem_flatMap, List.mem_cons, List.not_mem_nil, or_false] at hf
          obtain ⟨rp, hrp, hf⟩ := hf
          rcases hrp with rfl | rfl | rfl | rfl <;> simp at hf <;> rcases hf with rfl | rfl | rfl <;> rfl
        rw [this]
        simp only [Knn.Witness.st]
        norm_num
      · intro m hm
        simp only [List.mem_cons, List.not_mem_nil, or_false] at hm
        rcases hm with rfl | rfl | rfl <;> [rw [e4]; rw [e5]; rw [e6]] <;> norm_num
    · have hr : Knn.levelRadiomap lvl = [⟨"t1", "a", Knn.Witness.st⟩, ⟨"t2", "a", Knn.Witness.st⟩, ⟨"t3", "a", Knn.Witness.st⟩,
        ⟨"t1", "b", Knn.Witness.st⟩, ⟨"t2", "b", Knn.Witness.st⟩, ⟨"t3", "b", Knn.Witness.st⟩,
        ⟨"t1", "c", Knn.Witness.st⟩, ⟨"t2", "c", Knn.Witness.st⟩, ⟨"t3", "c", Knn.Witness.st⟩,
        ⟨"t1", "d", Knn.Witness.st⟩, ⟨"t2", "d", Knn.Witness.st⟩, ⟨"t3", "d", Knn.Witness.st⟩] := rfl
      rw [hr]
      simp [Knn.matched, e1, e2, e3, Triang.Example.pa]
    · intro rp hrp
      simp only [lvl, mkRadiomap, rps, List.mem_cons, List.not_mem_nil, or_false] at hrp
      rcases hrp with rfl | rfl | rfl | rfl <;> simp [Estim.Box.Covers, lvl] <;> norm_num
  have hage : (exAccel (3000 + k)).ts - 3000 = k := by simp [exAccel]
  rw [hage, hdead] at h6 h7
  refine ⟨s, outs, s', out, dbg, h1, h2, by rw [h5]; exact hbox, fun hlt => ?_, fun hge => ?_⟩
  · obtain ⟨r1, r2, r3, -, r5⟩ := h6 ⟨hbox, hlt⟩
    exact ⟨r1, r2, r3, r5⟩
  · exact (h7 (fun h => absurd h.2 (by omega))).2.2 (by rintro ⟨t, w, hcl, -⟩; exact hna _ hcl.1.1)

end Verif.Nav
