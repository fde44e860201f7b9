import Verif.Knn.RefClientProps
import Verif.Nav.KnnExample

/-!
# C154 for clients: a concrete case
-/

namespace Verif.RefOrder

open Verif.Levels Verif.Nav Verif.Floors
open Verif.Knn (Reordered Ordinary Generic named)
open Verif.Knn.RefOrder (lvl lvl' va pa pb pc pd fp)

/-- Fingerprints with absolute levels, without smoothing; three transmitters suffice, and they need not be on the map. -/
noncomputable def triSettings : CommonSettings :=
  { useAlgorithm := .KNN, useSmoothing := false, useUnknownTransmitters := true, useDiffMode := false,
    minNumOfMeasurementsForPositionCalculation := 3 }

theorem tri_settings : PlainFingerprints triSettings := by
  refine ⟨⟨?_, ?_⟩, ?_, ?_, ?_⟩
  · exact ⟨by constructor <;> simp [triSettings] <;> norm_num, by simp [triSettings]⟩
  all_goals simp [triSettings]

/-- The client. -/
noncomputable def triCfg : Cfg where
  env := printEnv
  cs := triSettings
  levels := collect [lvl]
  noSignal := 35000
  noAction := 20000
  detector := .radiomap false (Knn.getLevelsRadiomaps (collect [lvl]))
  indoor := .knn (Knn.mkCfg printEnv.triSorts printEnv.rpSort (collect [lvl]) triSettings)
  pre := Radio.mkCfg (collect [lvl]) triSettings
  fusion := Fusion.fusionConfig triSettings

theorem tri_built : mkCfg printEnv (collect [lvl]) triSettings [] = some triCfg := by
  unfold mkCfg createPositionEstimator
  rw [if_pos (by rfl)]
  simp [triCfg, triSettings, createLevelEstimator]

theorem triClient : Client [lvl] triCfg where
  map := by
    refine ⟨by simp, ?_, ?_, ?_⟩ <;> intro l hl <;> rw [List.mem_singleton] at hl <;> rw [hl]
    · simp [lvl, Knn.RefOrder.floor]
    · rfl
    · exact ⟨[], rfl⟩
  settings := ⟨fun h => (by cases h), fun h => (by cases h)⟩
  sort := sortsBy_insertionSort _
  radioSorts := Radio.insertionSorts_lawful
  built := ⟨[], tri_built⟩

theorem sig_heard (id : String) : Radio.Admissible [lvl] triCfg.cs ⟨.BEACON, id, -70, 0, 0, 0⟩ := by
  refine ⟨?_, ?_, ?_, .inl rfl⟩
  · simp [Radio.TypeEnabled, triCfg, triSettings]
  · intro _; simp [triCfg, triSettings]; norm_num
  · intro h; exact absurd rfl h

theorem tri_span : spanOf triCfg.cs = 1000 := by simp [spanOf, triCfg, triSettings]

/-- The signals. -/
noncomputable def signals : List Measurement := [sig "t1" 1000, sig "t2" 1500, sig "t3" 3000]

/-- Their window. -/
noncomputable def win : List RadioMeasurement := [heardSig "t1" 1000, heardSig "t2" 1500, heardSig "t3" 3000]

theorem first_two : windows [lvl] triCfg.cs [sig "t1" 1000, sig "t2" 1500] = ⟨some 1000, [heardSig "t1" 1000, heardSig "t2" 1500], none⟩ ∧
    closedWindows [lvl] triCfg.cs [sig "t1" 1000, sig "t2" 1500] = [] := by
  have h1 : windows [lvl] triCfg.cs [sig "t1" 1000] = ⟨some 1000, [heardSig "t1" 1000], none⟩ := by
    rw [show [sig "t1" 1000] = [] ++ [sig "t1" 1000] from rfl, windows_snoc]
    unfold sig
    rw [take_heard _ (sig_heard "t1"), tri_span]
    simp [Windows.hear, windows, heardSig]
  have h2 : windows [lvl] triCfg.cs [sig "t1" 1000, sig "t2" 1500] = ⟨some 1000, [heardSig "t1" 1000, heardSig "t2" 1500], none⟩ := by
    rw [show [sig "t1" 1000, sig "t2" 1500] = [sig "t1" 1000] ++ [sig "t2" 1500] from rfl, windows_snoc, h1]
    unfold sig
    rw [take_heard _ (sig_heard "t2"), tri_span]
    simp [Windows.hear, heardSig]
  refine ⟨h2, ?_⟩
  rw [show [sig "t1" 1000, sig "t2" 1500] = ([] ++ [sig "t1" 1000]) ++ [sig "t2" 1500] from rfl, closedWindows_snoc, if_neg,
    closedWindows_snoc, if_neg, closedWindows_nil]
  · rfl
  · rintro ⟨-, hcl⟩
    rw [tri_span] at hcl
    simp [windows] at hcl
  · rintro ⟨-, hcl⟩
    rw [tri_span, show ([] : List Measurement) ++ [sig "t1" 1000] = [sig "t1" 1000] from rfl, h1] at hcl
    simp [sig] at hcl

theorem all_closes : ClosesWith [lvl] triCfg.cs [sig "t1" 1000, sig "t2" 1500] (sig "t3" 3000) 3000 win := by
  refine ⟨⟨⟨_, rfl, sig_heard "t3"⟩, ?_⟩, ?_⟩
  · rw [first_two.1, tri_span]; simp [sig]
  · rw [windows_snoc, first_two.1]
    unfold sig
    rw [take_heard _ (sig_heard "t3"), tri_span]
    simp [Windows.hear, win, heardSig]

theorem all_windows (t : Int) : closedWindows [lvl] triCfg.cs (signals ++ [exAccel t]) = [(3000, win)] := by
  rw [closedWindows_snoc, if_neg (by rintro ⟨⟨d, hd, -⟩, -⟩; cases hd),
    show signals = [sig "t1" 1000, sig "t2" 1500] ++ [sig "t3" 3000] from rfl, closedWindows_snoc, if_pos all_closes.1,
    first_two.2, all_closes.2]
  rfl

theorem onMap (tx : String) (h : tx = "t1" ∨ tx = "t2" ∨ tx = "t3") : OnMap lvl tx := by
  refine ⟨pa, by simp [lvl, Knn.RefOrder.floor, mkRadiomap], ?_⟩
  rcases h with rfl | rfl | rfl <;> simp [pa, fp]

/-- The averages of the window. -/
theorem averages {avg : List RadioData} (h : MapAverages lvl win avg) :
    ∃ a b d, avg = [a, b, d] ∧ Knn.RefOrder.Three a b d := by
  have hids : avg.map RadioData.id = ["t1", "t2", "t3"] := by
    have hs : (["t1", "t2", "t3"] : List String).Pairwise (· < ·) := by
      simp only [List.pairwise_cons, List.mem_cons, List.not_mem_nil, or_false, forall_eq_or_imp, forall_eq, List.Pairwise.nil,
        and_true, IsEmpty.forall_iff, implies_true]
      refine ⟨⟨?_, ?_⟩, ?_⟩ <;> exact String.lt_iff_toList_lt.mpr (by decide)
    refine List.Perm.eq_of_pairwise (le := (· < ·)) (fun a b _ _ h1 h2 => absurd h2 (lt_asymm h1)) h.sorted hs ?_
    refine (List.perm_ext_iff_of_nodup (h.sorted.imp (fun h => ne_of_lt h)) (hs.imp (fun h => ne_of_lt h))).mpr ?_
    intro id
    rw [List.mem_map]
    refine (h.ids id).trans ?_
    constructor
    · rintro ⟨-, m, hm, rfl⟩
      simp only [win, heardSig, List.mem_cons, List.not_mem_nil, or_false] at hm
      rcases hm with rfl | rfl | rfl <;> simp
    · intro hid
      simp only [List.mem_cons, List.not_mem_nil, or_false] at hid
      refine ⟨onMap id hid, ?_⟩
      simp only [win, heardSig, List.mem_cons, List.not_mem_nil, or_false, exists_eq_or_imp, exists_eq_left]
      rcases hid with rfl | rfl | rfl <;> simp
  have hpow : ∀ e ∈ avg, e.power = 0 := by
    intro e he
    obtain ⟨m, hm, -, hp⟩ := h.power e he
    rw [← hp]
    simp only [win, heardSig, List.mem_cons, List.not_mem_nil, or_false] at hm
    rcases hm with rfl | rfl | rfl <;> rfl
  obtain ⟨a, b, d, rfl⟩ := List.length_eq_three.mp (show avg.length = 3 by simpa using congrArg List.length hids)
  simp only [List.map_cons, List.map_nil, List.cons.injEq, and_true] at hids
  obtain ⟨e1, e2, e3⟩ := hids
  refine ⟨a, b, d, rfl, ⟨e1, e2, e3⟩, ⟨?_, ?_, ?_⟩, hpow a (by simp), hpow b (by simp), hpow d (by simp)⟩
  · rw [h.rssi a (by simp), e1]; simp [meanRssi, Radio.ofTransmitter, win, heardSig, Radio.mean]
  · rw [h.rssi b (by simp), e2]; simp [meanRssi, Radio.ofTransmitter, win, heardSig, Radio.mean]
  · rw [h.rssi d (by simp), e3]; simp [meanRssi, Radio.ofTransmitter, win, heardSig, Radio.mean]

/-- No two triangles share the largest weight. -/
theorem no_ties (t : Int) : NoTiedTriangles printEnv.triSorts [lvl] triCfg.cs (closedWindows [lvl] triCfg.cs (signals ++ [exAccel t])) := by
  intro w hw l hl avg havg t ht u hu ht' hu' _
  rw [all_windows, List.mem_singleton] at hw
  rw [List.mem_singleton] at hl
  subst hw hl
  obtain ⟨x, y, z, rfl, h3⟩ := averages havg
  simp only [← triangleWeight_eq] at ht' hu'
  exact Knn.RefOrder.no_tie h3 _ edgeSort_sorts (fun _ => List.Perm.refl _) t u ⟨ht, ht'⟩ ⟨hu, hu'⟩

/-- Windows in which all three transmitters are heard give a place. -/
theorem locates : Locates triCfg.env.triSorts lvl triCfg.cs win := by
  obtain ⟨t, ht, -⟩ := Knn.RefOrder.has_triangle printEnv.triSorts edgeSort_sorts (fun _ => List.Perm.refl _)
  refine ⟨⟨["t1", "t2", "t3"], by simp, by simp [triCfg, triSettings], ?_⟩, fun _ => ⟨?_, List.ne_nil_of_mem ht⟩⟩
  · intro id hid
    simp only [List.mem_cons, List.not_mem_nil, or_false] at hid
    refine ⟨onMap id hid, ?_⟩
    simp only [win, heardSig, List.mem_cons, List.not_mem_nil, or_false, exists_eq_or_imp, exists_eq_left]
    rcases hid with rfl | rfl | rfl <;> simp
  · simp [lvl, Knn.RefOrder.floor, mkRadiomap]

/-- **C154** for clients is about possible histories: four reference points in two orders, three signals and a message of the
accelerometer; the client answers with a place, the same for both orders. -/
theorem C154_client_example (g : Garbage) : ∃ c', mkCfg printEnv (collect [lvl']) triSettings [] = some c' ∧
    ∃ s outs s' out dbg, navigateAll triCfg (init triCfg g) [signals] = .ok (s, outs) ∧
      navigate triCfg s [exAccel 3000] = .ok (s', [(out, dbg)]) ∧ out.status = .OK ∧
      navigateAll c' (init c' g) [signals, [exAccel 3000]] = .ok (s', outs ++ [(out, dbg)]) := by
  obtain ⟨c', hc', hsame⟩ := C154_client (.cons Knn.RefOrder.reordered .nil) triClient tri_built tri_settings.toDirect.toWindowed.framed edgeSort_sorts
    (fun _ => List.Perm.refl _) (fun _ _ _ => rfl) (by simpa using Knn.RefOrder.ordinary) (fun _ => by simpa using fun _ => Knn.RefOrder.generic)
  obtain ⟨s, outs, h1, -⟩ := C79_total triClient g [signals]
  have hrec : records signals = signals := records_ordered _ (by simp [Ordered, signals, sig])
  have htk : taken [signals] = signals := by simp [taken, hrec]
  have hna : ∀ t, ¬ Heard [lvl] triCfg.cs (exAccel t) := by rintro t ⟨d, hd, -⟩; cases hd
  have hdead : ⌊1000 * triCfg.cs.deadReckoningTime⌋ = 5000 := by
    have : (1000 : ℝ) * triCfg.cs.deadReckoningTime = ((5000 : Int) : ℝ) := by
      simp [triCfg, triSettings]; norm_num
    rw [this, Int.floor_intCast]
  have hpos : ∀ e ∈ signals ++ [exAccel 3000], 0 < e.ts := by
    intro e he
    simp only [signals, List.mem_append, List.mem_cons, List.not_mem_nil, or_false] at he
    rcases he with (rfl | rfl | rfl) | rfl <;> simp [exAccel, sig]
  obtain ⟨s', out, dbg, avg, p, h2, h3, h4, h5, h6, h7⟩ := C113_place triClient tri_settings edgeSort_sorts.perm
    (fun l => List.Perm.refl _) g [signals] h1 (exAccel 3000) (by rw [htk]; exact hpos)
    ⟨[sig "t1" 1000, sig "t2" 1500], sig "t3" 3000,
      [exAccel 3000], by rw [htk]; rfl, ⟨_, rfl, sig_heard "t3"⟩,
      (by intro e he; rw [List.mem_singleton] at he; rw [he]; exact hna _),
      (by change (3000 : Int) < 3000 + 1000 * 35; omega)⟩ (t0 := 3000) (win := win)
    ⟨[sig "t1" 1000, sig "t2" 1500], sig "t3" 3000,
      [exAccel 3000], by rw [htk]; rfl, all_closes, locates, by
        intro a e b hab t' w hcl
        have : a = [] ∧ e = exAccel 3000 := by
          cases a with
          | nil => simp only [List.nil_append, List.cons.injEq] at hab; exact ⟨rfl, hab.1.symm⟩
          | cons x a => simp at hab
        rw [this.2] at hcl
        exact absurd hcl.1.1 (hna _)⟩
  have hbox : Estim.Box.Covers lvl.geometry.boundingBox p := by
    obtain ⟨a, b, d, rfl, e⟩ := averages h3
    obtain ⟨t, ht, hp⟩ := Knn.RefOrder.has_triangle printEnv.triSorts edgeSort_sorts (fun _ => List.Perm.refl _)
    refine C113_in_box rfl h4 ?_ ⟨t, ht, va, hp.mem_iff.mpr (by simp), ?_⟩ ?_
    · constructor
      · intro f hf
        simp only [Knn.levelRadiomap, lvl, Knn.RefOrder.floor, mkRadiomap, pa, pb, pc, pd, fp, List.mem_flatMap, List.mem_cons,
          List.not_mem_nil, or_false] at hf
        obtain ⟨rp, hrp, hf⟩ := hf
        rcases hrp with rfl | rfl | rfl | rfl <;> simp at hf <;> rcases hf with rfl | rfl | rfl <;> norm_num
      · intro m hm
        simp only [List.mem_cons, List.not_mem_nil, or_false] at hm
        rcases hm with rfl | rfl | rfl <;> [rw [e.rssi.1]; rw [e.rssi.2.1]; rw [e.rssi.2.2]] <;> norm_num
    · simp [Knn.matched, Knn.levelRadiomap, lvl, Knn.RefOrder.floor, mkRadiomap, pa, pb, pc, pd, fp, va, e.ids.1, e.ids.2.1, e.ids.2.2]
    · intro rp hrp
      simp only [lvl, Knn.RefOrder.floor, mkRadiomap, List.mem_cons, List.not_mem_nil, or_false] at hrp
      rcases hrp with rfl | rfl | rfl | rfl <;> simp [Estim.Box.Covers, lvl, Knn.RefOrder.floor, pa, pb, pc, pd] <;> norm_num
  have hage : (exAccel 3000).ts - 3000 = 0 := by simp [exAccel]
  rw [hage, hdead] at h6
  refine ⟨c', hc', s, outs, s', out, dbg, h1, h2, (h6 ⟨hbox, by norm_num⟩).1, ?_⟩
  have htk2 : taken [signals, [exAccel 3000]] = signals ++ [exAccel 3000] := by
    simp [taken, hrec, records_ordered [exAccel 3000] (by simp [Ordered])]
  rw [hsame g _ (by rw [htk2]; exact hpos) (fun _ _ => by rw [htk2]; exact no_ties 3000)]
  have h1' : navigate triCfg (init triCfg g) signals = .ok (s, outs) := by
    rw [navigateAll_eq, htk] at h1
    rw [navigate_eq, hrec]
    exact h1
  unfold navigateAll
  rw [h1']
  change andThen (navigateAll triCfg s [[exAccel 3000]]) _ = _
  unfold navigateAll
  rw [h2]
  rfl

end Verif.RefOrder
