import Verif.Prints.Props
import Verif.Floors.Props

/-!
# A building with two floors and fingerprints

C119 is about possible histories, and the floor reported need not be the floor in use.
-/

namespace Verif.Prints

open Verif.Levels Verif.Nav
open Verif.Knn (Result)
open Verif.Floors (sig heardSig idsOf votes closedWindows closedWindows_nil closedWindows_snoc)

/-! ## Scores -/

theorem agreement_pos {lv : Level} {win : List RadioMeasurement} {tx : String} (h : OnMap lv tx) : 0 < agreement lv win tx := by
  have hne : printsOf lv tx ≠ [] := by
    obtain ⟨rp, hrp, p, hp, e⟩ := h
    have : p.2.mean ∈ printsOf lv tx :=
      List.mem_flatMap.mpr ⟨rp, hrp, List.mem_map.mpr ⟨p, List.mem_filter.mpr ⟨hp, by simpa using e⟩, rfl⟩⟩
    exact List.ne_nil_of_mem this
  unfold agreement Radio.mean
  apply div_pos
  · apply List.sum_pos
    · intro x hx
      obtain ⟨a, -, rfl⟩ := List.mem_map.mp hx
      positivity
    · simpa using hne
  · rw [List.length_map]
    exact_mod_cast List.length_pos_iff.mpr hne

theorem score_pos {lv : Level} {win : List RadioMeasurement} (h : knownIds lv win ≠ []) : 0 < score win lv := by
  unfold score
  apply mul_pos
  · apply List.sum_pos
    · intro x hx
      obtain ⟨a, ha, rfl⟩ := List.mem_map.mp hx
      exact agreement_pos (by simpa using (List.mem_filter.mp ha).2)
    · simpa using h
  · exact_mod_cast List.length_pos_iff.mpr h

theorem score_zero {lv : Level} {win : List RadioMeasurement} (h : knownIds lv win = []) : score win lv = 0 := by
  simp [score, h]

theorem known_some {lv : Level} {win : List RadioMeasurement} {m : RadioMeasurement} (hm : m ∈ win) (h : OnMap lv m.data.id) :
    knownIds lv win ≠ [] := by
  classical
  have : m.data.id ∈ knownIds lv win := by
    unfold knownIds
    rw [List.mem_filter]
    exact ⟨by unfold idsOf; rw [List.mem_dedup]; exact List.mem_map_of_mem hm, by simpa using h⟩
  exact List.ne_nil_of_mem this

theorem known_none {lv : Level} {win : List RadioMeasurement} (h : ∀ m ∈ win, ¬ OnMap lv m.data.id) : knownIds lv win = [] := by
  classical
  unfold knownIds
  rw [List.filter_eq_nil_iff]
  intro id hid
  unfold idsOf at hid
  rw [List.mem_dedup] at hid
  obtain ⟨m, hm, rfl⟩ := List.mem_map.mp hid
  simpa using h m hm

/-! ## The building -/

/-- A fingerprint. -/
noncomputable def stat : SignalStatistics := Knn.Witness.st

/-- The lower floor: one reference point, two transmitters. -/
noncomputable def low : Level :=
  ⟨"A", ⟨0, 0⟩, [], mkRadiomap [⟨"a", ⟨1, 1⟩, [("tx", stat), ("tz", stat)]⟩], ⟨[], ⟨⟨0, 0⟩, ⟨9, 9⟩⟩, []⟩, ⟨[], []⟩⟩

/-- The upper floor: one reference point, one transmitter. -/
noncomputable def high : Level :=
  ⟨"B", ⟨0, 0⟩, [], mkRadiomap [⟨"b", ⟨2, 2⟩, [("ty", stat)]⟩], ⟨[], ⟨⟨0, 0⟩, ⟨9, 9⟩⟩, []⟩, ⟨[], []⟩⟩

/-- Two transmitters suffice, triangles are not used; the rest is as in C113's example. -/
noncomputable def twoSettings : CommonSettings :=
  { useAlgorithm := .KNN, useSmoothing := false, useUnknownTransmitters := true, useTriangles := false,
    minNumOfMeasurementsForPositionCalculation := 2 }

theorem two_settings : PlainFingerprints twoSettings := by
  refine ⟨⟨?_, ?_⟩, ?_, ?_, ?_⟩
  · exact ⟨by constructor <;> simp [twoSettings] <;> norm_num, by simp [twoSettings]⟩
  all_goals simp [twoSettings]

/-- The client. -/
noncomputable def twoCfg : Cfg where
  env := exEnv
  cs := twoSettings
  levels := collect [low, high]
  noSignal := 35000
  noAction := 20000
  detector := .radiomap false (Knn.getLevelsRadiomaps (collect [low, high]))
  indoor := .knn (Knn.mkCfg exEnv.triSorts exEnv.rpSort (collect [low, high]) twoSettings)
  pre := Radio.mkCfg (collect [low, high]) twoSettings
  fusion := Fusion.fusionConfig twoSettings

theorem twoClient : Client [low, high] twoCfg where
  map := by
    refine ⟨by simp [low, high], ?_, ?_, ?_⟩ <;> intro l hl <;>
      simp only [List.mem_cons, List.not_mem_nil, or_false] at hl <;> rcases hl with rfl | rfl
    · simp [low]
    · simp [high]
    · rfl
    · rfl
    · exact ⟨[], rfl⟩
    · exact ⟨[], rfl⟩
  settings := ⟨fun h => (by cases h), fun h => (by cases h)⟩
  sort := sortsBy_insertionSort _
  radioSorts := Radio.insertionSorts_lawful
  built := by
    refine ⟨[], ?_⟩
    unfold mkCfg createPositionEstimator
    rw [if_pos (by rfl)]
    simp [twoCfg, twoSettings, createLevelEstimator]

theorem low_onMap (tx : String) : OnMap low tx ↔ tx = "tx" ∨ tx = "tz" := by
  constructor
  · rintro ⟨rp, hrp, p, hp, rfl⟩
    simp only [low, mkRadiomap, List.mem_singleton] at hrp
    subst hrp
    simp only [List.mem_cons, List.not_mem_nil, or_false] at hp
    rcases hp with rfl | rfl <;> simp
  · intro h
    refine ⟨_, List.mem_singleton.mpr rfl, (tx, stat), ?_, rfl⟩
    rcases h with rfl | rfl <;> simp

theorem high_onMap (tx : String) : OnMap high tx ↔ tx = "ty" := by
  simp [OnMap, high, mkRadiomap, eq_comm]

/-- A window with transmitters of the lower floor only. -/
theorem window_low {win : List RadioMeasurement} (hne : win ≠ []) (h : ∀ m ∈ win, m.data.id = "tx" ∨ m.data.id = "tz") :
    WindowFloor [low, high] win (some low) := by
  obtain ⟨m, hm⟩ := List.exists_mem_of_ne_nil _ hne
  have hk : knownIds low win ≠ [] := known_some hm ((low_onMap _).mpr (h m hm))
  refine ⟨[], [high], rfl, hk, by simp, ?_⟩
  intro k hk'
  rw [List.mem_singleton] at hk'
  subst hk'
  rw [score_zero (known_none fun m hm => ?_)]
  · exact (score_pos hk).le
  · rw [high_onMap]
    rcases h m hm with e | e <;> rw [e] <;> simp

/-- A window with transmitters of the upper floor only. -/
theorem window_high {win : List RadioMeasurement} (hne : win ≠ []) (h : ∀ m ∈ win, m.data.id = "ty") :
    WindowFloor [low, high] win (some high) := by
  obtain ⟨m, hm⟩ := List.exists_mem_of_ne_nil _ hne
  have hk : knownIds high win ≠ [] := known_some hm ((high_onMap _).mpr (h m hm))
  refine ⟨[low], [], rfl, hk, ?_, by simp⟩
  intro k hk'
  rw [List.mem_singleton] at hk'
  subst hk'
  rw [score_zero (known_none fun m hm => ?_)]
  · exact score_pos hk
  · rw [low_onMap, h m hm]; simp

/-! ## The history -/

theorem sig_heard (id : String) : Radio.Admissible [low, high] twoCfg.cs ⟨.BEACON, id, -70, 0, 0, 0⟩ := by
  refine ⟨?_, ?_, ?_, .inl rfl⟩
  · simp [Radio.TypeEnabled, twoCfg, twoSettings]
  · intro _; simp [twoCfg, twoSettings]; norm_num
  · intro h; exact absurd rfl h

theorem two_span : spanOf twoCfg.cs = 1000 := by simp [spanOf, twoCfg, twoSettings]

/-- The windows of a history. -/
def Cut (ms : List Measurement) (w : Windows) (ws : List (Int × List RadioMeasurement)) : Prop :=
  windows [low, high] twoCfg.cs ms = w ∧ closedWindows [low, high] twoCfg.cs ms = ws

theorem cut_first (id : String) (t : Int) : Cut [sig id t] ⟨some t, [heardSig id t], none⟩ [] := by
  have hw : windows [low, high] twoCfg.cs [sig id t] = ⟨some t, [heardSig id t], none⟩ := by
    rw [show [sig id t] = [] ++ [sig id t] from rfl, windows_snoc]
    unfold sig
    rw [take_heard _ (sig_heard id), two_span]
    simp [Windows.hear, windows, heardSig]
  refine ⟨hw, ?_⟩
  rw [show [sig id t] = [] ++ [sig id t] from rfl, closedWindows_snoc, if_neg, closedWindows_nil]
  · rfl
  · rintro ⟨-, hcl⟩
    rw [two_span] at hcl
    simp [windows] at hcl

theorem cut_next {ms : List Measurement} {t0 : Int} {pend : List RadioMeasurement} {cl : Option (Int × List RadioMeasurement)}
    {ws : List (Int × List RadioMeasurement)} (hc : Cut ms ⟨some t0, pend, cl⟩ ws) (id : String) {t : Int}
    (ht : t0 + 1000 ≤ t) : Cut (ms ++ [sig id t]) ⟨some t, [], some (t, pend ++ [heardSig id t])⟩ (ws ++ [(t, pend ++ [heardSig id t])]) := by
  have hw : windows [low, high] twoCfg.cs (ms ++ [sig id t]) = ⟨some t, [], some (t, pend ++ [heardSig id t])⟩ := by
    rw [windows_snoc, hc.1]
    unfold sig
    rw [take_heard _ (sig_heard id), two_span]
    unfold Windows.hear
    rw [if_pos (by simp only [Option.getD_some]; omega)]
    rfl
  refine ⟨hw, ?_⟩
  rw [closedWindows_snoc, if_pos, hw, hc.2]
  · rfl
  · refine ⟨⟨_, rfl, sig_heard id⟩, ?_⟩
    rw [two_span, hc.1]
    simp only [Option.getD_some, sig]
    omega

theorem cut_more {ms : List Measurement} {t0 : Int} {pend : List RadioMeasurement} {cl : Option (Int × List RadioMeasurement)}
    {ws : List (Int × List RadioMeasurement)} (hc : Cut ms ⟨some t0, pend, cl⟩ ws) (id : String) {t : Int}
    (ht : t < t0 + 1000) : Cut (ms ++ [sig id t]) ⟨some t0, pend ++ [heardSig id t], cl⟩ ws := by
  have hw : windows [low, high] twoCfg.cs (ms ++ [sig id t]) = ⟨some t0, pend ++ [heardSig id t], cl⟩ := by
    rw [windows_snoc, hc.1]
    unfold sig
    rw [take_heard _ (sig_heard id), two_span]
    unfold Windows.hear
    rw [if_neg (by simp only [Option.getD_some]; omega)]
    rfl
  refine ⟨hw, ?_⟩
  rw [closedWindows_snoc, if_neg, hc.2]
  · simp
  · rintro ⟨-, hcl⟩
    rw [two_span, hc.1] at hcl
    simp only [Option.getD_some, sig] at hcl
    omega

/-- The user is on the lower floor, hears the upper one four times, is located on the lower floor, and goes up. -/
noncomputable def stairs : List Measurement :=
  [sig "tx" 1000, sig "tz" 3000, sig "ty" 5000, sig "ty" 7000, sig "ty" 9000, sig "ty" 11000, sig "tx" 11500, sig "tz" 13000,
    sig "ty" 15000]

/-- The windows before the last place. -/
noncomputable def earlier : List (Int × List RadioMeasurement) :=
  [(3000, [heardSig "tx" 1000, heardSig "tz" 3000]), (5000, [heardSig "ty" 5000]), (7000, [heardSig "ty" 7000]),
    (9000, [heardSig "ty" 9000]), (11000, [heardSig "ty" 11000])]

/-- The window of the last place. -/
noncomputable def lastLow : List RadioMeasurement := [heardSig "tx" 11500, heardSig "tz" 13000]

theorem stairs_cut : closedWindows [low, high] twoCfg.cs stairs = earlier ++ [(13000, lastLow), (15000, [heardSig "ty" 15000])] := by
  have h1 := cut_next (cut_first "tx" 1000) "tz" (t := 3000) (by norm_num)
  have h2 := cut_next h1 "ty" (t := 5000) (by norm_num)
  have h3 := cut_next h2 "ty" (t := 7000) (by norm_num)
  have h4 := cut_next h3 "ty" (t := 9000) (by norm_num)
  have h5 := cut_next h4 "ty" (t := 11000) (by norm_num)
  have h6 := cut_more h5 "tx" (t := 11500) (by norm_num)
  have h7 := cut_next h6 "tz" (t := 13000) (by norm_num)
  have h8 := cut_next h7 "ty" (t := 15000) (by norm_num)
  simpa [stairs, earlier, lastLow] using h8.2

theorem earlier_floors : List.Forall₂ (fun w d => WindowFloor [low, high] w.2 d) earlier
    [some low, some high, some high, some high, some high] := by
  refine .cons (window_low (by simp) ?_) (.cons (window_high (by simp) ?_) (.cons (window_high (by simp) ?_)
    (.cons (window_high (by simp) ?_) (.cons (window_high (by simp) ?_) .nil)))) <;> simp [heardSig]

theorem lastLow_floor : WindowFloor [low, high] lastLow (some low) := window_low (by simp [lastLow]) (by simp [lastLow, heardSig])

theorem stairs_use : InUse [low, high] (earlier ++ [(13000, lastLow)]) low ∧
    InUse [low, high] (earlier ++ [(13000, lastLow), (15000, [heardSig "ty" 15000])]) high := by
  refine ⟨⟨by simp, [some low, some high, some high, some high, some high, some low], ?_, by rfl⟩,
    ⟨by simp, [some low, some high, some high, some high, some high, some low, some high], ?_, by rfl⟩⟩
  · exact List.rel_append earlier_floors (.cons lastLow_floor .nil)
  · exact List.rel_append earlier_floors (.cons lastLow_floor (.cons (window_high (by simp) (by simp [heardSig])) .nil))

theorem stairs_last : LastFix twoCfg.env.triSorts [low, high] twoCfg.cs
    (earlier ++ [(13000, lastLow), (15000, [heardSig "ty" 15000])]) low 13000 lastLow := by
  refine ⟨earlier, [(15000, [heardSig "ty" 15000])], rfl, ⟨stairs_use.1, ⟨["tx", "tz"], by simp, by simp [twoCfg, twoSettings], ?_⟩,
    fun h => absurd h (by simp [twoCfg, twoSettings])⟩, ?_⟩
  · intro id hid
    simp only [List.mem_cons, List.not_mem_nil, or_false] at hid
    refine ⟨(low_onMap id).mpr hid, ?_⟩
    rcases hid with rfl | rfl <;> simp [lastLow, heardSig]
  · intro a w b hab k hk
    have haw : w = (15000, [heardSig "ty" 15000]) := by
      cases a with
      | nil => simp only [List.nil_append, List.cons.injEq] at hab; exact hab.1.symm
      | cons x a => simp at hab
    subst haw
    obtain ⟨-, ⟨ids, hnd, hlen, hids⟩, -⟩ := hk
    have hall : ∀ id ∈ ids, id = "ty" := by
      intro id hid
      obtain ⟨-, m, hm, rfl⟩ := hids id hid
      simp only [List.mem_singleton] at hm
      rw [hm]; rfl
    have h2 : 2 ≤ ids.length := hlen
    match ids, h2, hnd, hall with
    | p :: q :: _, _, hnd, hall =>
      rw [List.nodup_cons] at hnd
      apply hnd.1
      rw [hall p (by simp), hall q (by simp)]
      simp

/-- **C119** is about possible histories, and the floor of the answer need not be the floor in use.  After the history of
signals, whose last window makes the upper floor the floor in use, comes an accelerometer message after `k` milliseconds.  For three
seconds the client reports OK with a place on the lower floor, afterwards NO_SOLUTION. -/
theorem C119_example (g : Garbage) (k : Int) (hk : 0 ≤ k) (hk' : k < 35000) :
    ∃ s outs s' out dbg, navigateAll twoCfg (init twoCfg g) [stairs] = .ok (s, outs) ∧
      navigate twoCfg s [exAccel (15000 + k)] = .ok (s', [(out, dbg)]) ∧
      InUse [low, high] (closedWindows [low, high] twoCfg.cs (stairs ++ [exAccel (15000 + k)])) high ∧
      (k < 3000 → out.status = .OK ∧ out.posLevel = "A" ∧ out.provider = some .INDOOR ∧ out.posR = some 1) ∧
      (3000 ≤ k → out.status = .NO_SOLUTION) := by
  obtain ⟨s, outs, h1, -⟩ := C79_total twoClient g [stairs]
  have hrec : records stairs = stairs := records_ordered _ (by simp [Ordered, stairs, sig])
  have htk : taken [stairs] = stairs := by simp [taken, hrec]
  have hna : ∀ t, ¬ Heard [low, high] twoCfg.cs (exAccel t) := by rintro t ⟨d, hd, -⟩; cases hd
  have hws : closedWindows [low, high] twoCfg.cs (stairs ++ [exAccel (15000 + k)]) =
      earlier ++ [(13000, lastLow), (15000, [heardSig "ty" 15000])] := by
    rw [closedWindows_snoc, if_neg (fun h => hna _ h.1), stairs_cut]; simp
  have hdead : ⌊1000 * twoCfg.cs.deadReckoningTime⌋ = 5000 := by
    have : (1000 : ℝ) * twoCfg.cs.deadReckoningTime = ((5000 : Int) : ℝ) := by
      simp [twoCfg, twoSettings]; norm_num
    rw [this, Int.floor_intCast]
  obtain ⟨s', out, dbg, avg, p, lv, h2, huse, h3, h4, h5, h6, h7⟩ := C119_place twoClient two_settings
    (fun l => List.Perm.refl _) (fun l => List.Perm.refl _) g [stairs] h1 (exAccel (15000 + k))
    (by
      rw [htk]
      intro e he
      simp only [stairs, List.mem_append, List.mem_cons, List.not_mem_nil, or_false] at he
      rcases he with (rfl | rfl | rfl | rfl | rfl | rfl | rfl | rfl | rfl) | rfl <;> simp only [exAccel, sig] <;> omega)
    ⟨[sig "tx" 1000, sig "tz" 3000, sig "ty" 5000, sig "ty" 7000, sig "ty" 9000, sig "ty" 11000, sig "tx" 11500, sig "tz" 13000],
      sig "ty" 15000, [exAccel (15000 + k)], by rw [htk]; rfl, ⟨_, rfl, sig_heard _⟩,
      (by intro e he; rw [List.mem_singleton] at he; rw [he]; exact hna _),
      (by change 15000 + k < 15000 + 1000 * 35; omega)⟩ (lv0 := low) (t0 := 13000) (win := lastLow)
    (by rw [htk, hws]; exact stairs_last)
  rw [htk, hws] at huse
  have hlv : lv = high := inUse_unique twoClient.map huse stairs_use.2
  subst hlv
  have hp : p = ⟨0, 0⟩ := by
    unfold PlaceOf at h4
    rwa [if_neg (by simp [twoCfg, twoSettings])] at h4
  have hbox : Estim.Box.Covers high.geometry.boundingBox p := by
    rw [hp]
    simp [Estim.Box.Covers, high]
  have hage : (exAccel (15000 + k)).ts - 13000 = 2000 + k := by simp [exAccel]; ring
  rw [hage, hdead] at h6 h7
  refine ⟨s, outs, s', out, dbg, h1, h2, by rw [hws]; exact stairs_use.2, fun hlt => ?_, fun hge => ?_⟩
  · obtain ⟨r1, r2, r3, -, r5⟩ := h6 ⟨hbox, by omega⟩
    exact ⟨r1, r2, r3, r5⟩
  · exact (h7 (fun h => absurd h.2 (by omega))).2.2 (by rintro ⟨t, w, hcl, -⟩; exact hna _ hcl.1.1)

end Verif.Prints
