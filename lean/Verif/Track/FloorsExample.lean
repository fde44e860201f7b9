import Verif.Track.FloorsProps
import Verif.Track.Example

/-!
# C124: a house with an upper floor
-/

namespace Verif.Track

open Verif.Levels Verif.Nav Verif.Floors
open Verif.Geo (XYPoint)
open Verif.Knn (Result)

/-- A beacon eight metres east. -/
noncomputable def endTx : Transmitter XYZPoint := ⟨"tz", ⟨8, 0, 0⟩, ⟨-59, 10, 0⟩, .BEACON⟩

/-- An upper floor of ten metres with two beacons. -/
noncomputable def attic : Level :=
  Level.addTransmitters ⟨"B", ⟨0, 0⟩, [], mkRadiomap [], ⟨[], ⟨⟨0, 0⟩, ⟨10, 10⟩⟩, []⟩, NavGraph.empty⟩ [farTx, endTx]

/-- A client with default settings. -/
noncomputable def houseCfg : Cfg where
  env := exEnv
  cs := {}
  levels := collect [exLevel, attic]
  noSignal := 35000
  noAction := 20000
  detector := .transmitters false
  indoor := .zone [("A", -59), ("B", -59)] [("A", 10), ("B", 10)]
  pre := Radio.mkCfg (collect [exLevel, attic]) {}
  fusion := Fusion.fusionConfig {}

theorem houseClient : Client [exLevel, attic] houseCfg where
  map := by
    refine ⟨by simp [exLevel, attic, bareLevel, Level.addTransmitters], ?_, ?_, ?_⟩ <;> intro l hl <;>
      simp only [List.mem_cons, List.not_mem_nil, or_false] at hl <;> rcases hl with rfl | rfl
    · simp [exLevel, bareLevel, Level.addTransmitters]
    · simp [attic, Level.addTransmitters]
    · rfl
    · rfl
    · exact ⟨[], rfl⟩
    · exact ⟨[], rfl⟩
  settings := ⟨fun h => (by cases h), fun h => (by cases h)⟩
  sort := sortsBy_insertionSort _
  radioSorts := Radio.insertionSorts_lawful
  built := by
    refine ⟨[("A", ⟨-59, 10⟩), ("B", ⟨-59, 10⟩)], ?_⟩
    have hz : Estim.zoneParams [("A", ⟨-59, 10⟩), ("B", ⟨-59, 10⟩)] (collect [exLevel, attic]) =
        some ([("A", -59), ("B", -59)], [("A", 10), ("B", 10)]) := by
      have hBA : ¬ ("B" < "A") := not_lt.mpr (le_of_lt (String.lt_iff_toList_lt.mpr (by decide)))
      simp [Estim.zoneParams, collect_levels, exLevel, attic, bareLevel, Level.addTransmitters, List.foldlM, StdMap.find?, StdMap.set,
        StdMap.insertSorted]
      simpa using hBA
    unfold mkCfg createPositionEstimator
    rw [if_neg (by simp [houseCfg]), hz]
    simp [houseCfg, createLevelEstimator]

theorem attic_txs : attic.transmitters = [("ty", farTx), ("tz", endTx)] := by
  have hyx : ¬ ("tz" < "ty") := not_lt.mpr (le_of_lt (String.lt_iff_toList_lt.mpr (by decide)))
  simp [attic, Level.addTransmitters, endTx, farTx, StdMap.insert, StdMap.insertSorted, StdMap.find?]
  simpa using hyx

theorem attic_tx (id : String) : attic.transmitter id = if id = "ty" then some farTx else if id = "tz" then some endTx else none := by
  unfold Level.transmitter
  rw [attic_txs]
  by_cases h1 : id = "ty"
  · subst h1; simp [StdMap.find?]
  · by_cases h2 : id = "tz"
    · subst h2; simp [StdMap.find?]
    · simp [StdMap.find?, h1, h2, Ne.symm h1, Ne.symm h2]

theorem house_admitted {id : String} (h : id = "tx" ∨ id = "ty" ∨ id = "tz") :
    Radio.Admissible [exLevel, attic] houseCfg.cs ⟨.BEACON, id, -70, 0, 0, 0⟩ := by
  refine ⟨?_, ?_, ?_, ?_⟩
  · simp [Radio.TypeEnabled, houseCfg]
  · intro _; simp [houseCfg]; norm_num
  · intro h; exact absurd rfl h
  · right
    rcases h with rfl | rfl | rfl
    · refine ⟨exTx, ⟨exLevel, rfl, ?_, rfl⟩, ?_⟩
      · simp [exLevel, bareLevel, Level.addTransmitters, exTx, StdMap.insert, StdMap.insertSorted]
      · simp [exTx, houseCfg]
    · refine ⟨farTx, ⟨attic, ?_, ?_, rfl⟩, ?_⟩
      · simp [contains_iff, low_tx, attic_tx]
      · rw [attic_txs]; simp [farTx]
      · simp [farTx, houseCfg]
    · refine ⟨endTx, ⟨attic, ?_, ?_, rfl⟩, ?_⟩
      · simp [contains_iff, low_tx, attic_tx]
      · rw [attic_txs]; simp [endTx]
      · simp [endTx, houseCfg]

theorem house_span : spanOf houseCfg.cs = 1000 := by simp [spanOf, houseCfg]

/-- The windows of a history in the house. -/
def HouseCut (ms : List Measurement) (w : Windows) (ws : List (Int × List RadioMeasurement)) : Prop :=
  windows [exLevel, attic] houseCfg.cs ms = w ∧ closedWindows [exLevel, attic] houseCfg.cs ms = ws

theorem house_first {id : String} (h : id = "tx" ∨ id = "ty" ∨ id = "tz") (t : Int) : HouseCut [sig id t] ⟨some t, [heardSig id t], none⟩ [] := by
  have hw : windows [exLevel, attic] houseCfg.cs [sig id t] = ⟨some t, [heardSig id t], none⟩ := by
    rw [show [sig id t] = [] ++ [sig id t] from rfl, windows_snoc]
    unfold sig
    rw [take_heard _ (house_admitted h), house_span]
    simp [Windows.hear, windows, heardSig]
  refine ⟨hw, ?_⟩
  rw [show [sig id t] = [] ++ [sig id t] from rfl, closedWindows_snoc, if_neg, closedWindows_nil]
  · rfl
  · rintro ⟨-, hcl⟩
    rw [house_span] at hcl
    simp [windows] at hcl

theorem house_next {ms : List Measurement} {t0 : Int} {pend : List RadioMeasurement} {cl : Option (Int × List RadioMeasurement)}
    {ws : List (Int × List RadioMeasurement)} (hc : HouseCut ms ⟨some t0, pend, cl⟩ ws) {id : String} (h : id = "tx" ∨ id = "ty" ∨ id = "tz") {t : Int}
    (ht : t0 + 1000 ≤ t) : HouseCut (ms ++ [sig id t]) ⟨some t, [], some (t, pend ++ [heardSig id t])⟩ (ws ++ [(t, pend ++ [heardSig id t])]) := by
  have hw : windows [exLevel, attic] houseCfg.cs (ms ++ [sig id t]) = ⟨some t, [], some (t, pend ++ [heardSig id t])⟩ := by
    rw [windows_snoc, hc.1]
    unfold sig
    rw [take_heard _ (house_admitted h), house_span]
    unfold Windows.hear
    rw [if_pos (by simp only [Option.getD_some]; omega)]
    rfl
  refine ⟨hw, ?_⟩
  rw [closedWindows_snoc, if_pos, hw, hc.2]
  · rfl
  · refine ⟨⟨_, rfl, house_admitted h⟩, ?_⟩
    rw [house_span, hc.1]
    simp only [Option.getD_some, sig]
    omega

/-- Two signals downstairs and four upstairs. -/
noncomputable def up4 : List Measurement := [sig "tx" 1000, sig "tx" 3000, sig "ty" 5000, sig "ty" 7000, sig "ty" 9000, sig "ty" 11000]

/-- Two more. -/
noncomputable def up6 : List Measurement := up4 ++ [sig "ty" 13000] ++ [sig "ty" 15000]

/-- The windows of the first of them. -/
noncomputable def upWins : List (Int × List RadioMeasurement) :=
  [(3000, [heardSig "tx" 1000, heardSig "tx" 3000]), (5000, [heardSig "ty" 5000]), (7000, [heardSig "ty" 7000]), (9000, [heardSig "ty" 9000]),
    (11000, [heardSig "ty" 11000])]

theorem up4_cut : ∃ cl, HouseCut up4 ⟨some 11000, [], cl⟩ upWins :=
  ⟨_, house_next (house_next (house_next (house_next (house_next (house_first (.inl rfl) 1000) (.inl rfl) (t := 3000) (by norm_num)) (.inr (.inl rfl)) (t := 5000)
    (by norm_num)) (.inr (.inl rfl)) (t := 7000) (by norm_num)) (.inr (.inl rfl)) (t := 9000) (by norm_num)) (.inr (.inl rfl)) (t := 11000) (by norm_num)⟩

theorem up5_cut : ∃ cl, HouseCut (up4 ++ [sig "ty" 13000]) ⟨some 13000, [], cl⟩ (upWins ++ [(13000, [heardSig "ty" 13000])]) := by
  obtain ⟨cl, h⟩ := up4_cut
  exact ⟨_, house_next h (.inr (.inl rfl)) (t := 13000) (by norm_num)⟩

theorem up7_cut : ∃ cl, HouseCut (up6 ++ [sig "tz" 17000]) ⟨some 17000, [], cl⟩
    (upWins ++ [(13000, [heardSig "ty" 13000])] ++ [(15000, [heardSig "ty" 15000])] ++ [(17000, [heardSig "tz" 17000])]) := by
  obtain ⟨cl, h⟩ := up5_cut
  exact ⟨_, house_next (house_next h (.inr (.inl rfl)) (t := 15000) (by norm_num)) (.inr (.inr rfl)) (t := 17000) (by norm_num)⟩

theorem is_low {win : List RadioMeasurement} (hne : win ≠ []) (hw : ∀ m ∈ win, m.data.id = "tx") : FloorOf [exLevel, attic] win exLevel ∧ onFloor exLevel win = win := by
  have h1 : onFloor exLevel win = win := by
    unfold onFloor
    rw [List.filter_eq_self]
    intro m hm
    rw [hw m hm, low_tx]; simp
  have h2 : onFloor attic win = [] := by
    unfold onFloor
    rw [List.filter_eq_nil_iff]
    intro m hm
    rw [hw m hm, attic_tx]; simp
  refine ⟨⟨[], [attic], rfl, by rw [h1]; exact hne, by simp, ?_⟩, h1⟩
  intro k hk
  rw [List.mem_singleton] at hk
  rw [hk, h2]
  simp

theorem is_up {win : List RadioMeasurement} (hne : win ≠ []) (hw : ∀ m ∈ win, m.data.id = "ty" ∨ m.data.id = "tz") :
    FloorOf [exLevel, attic] win attic ∧ onFloor attic win = win ∧ onFloor exLevel win = [] := by
  have h1 : onFloor attic win = win := by
    unfold onFloor
    rw [List.filter_eq_self]
    intro m hm
    rw [attic_tx]
    rcases hw m hm with h | h <;> rw [h] <;> simp
  have h2 : onFloor exLevel win = [] := by
    unfold onFloor
    rw [List.filter_eq_nil_iff]
    intro m hm
    rw [low_tx]
    rcases hw m hm with h | h <;> rw [h] <;> simp
  refine ⟨⟨[exLevel], [], rfl, by rw [h1]; exact hne, ?_, by simp⟩, h1, h2⟩
  intro k hk
  rw [List.mem_singleton] at hk
  rw [hk, h2]
  simp

theorem up_ty (t : Int) : FloorOf [exLevel, attic] [heardSig "ty" t] attic ∧ onFloor attic [heardSig "ty" t] = [heardSig "ty" t] ∧
    onFloor exLevel [heardSig "ty" t] = [] := is_up (by simp) (by simp [heardSig])

theorem up_tz (t : Int) : FloorOf [exLevel, attic] [heardSig "tz" t] attic ∧ onFloor attic [heardSig "tz" t] = [heardSig "tz" t] ∧
    onFloor exLevel [heardSig "tz" t] = [] := is_up (by simp) (by simp [heardSig])

theorem low2 : FloorOf [exLevel, attic] [heardSig "tx" 1000, heardSig "tx" 3000] exLevel ∧
    onFloor exLevel [heardSig "tx" 1000, heardSig "tx" 3000] = [heardSig "tx" 1000, heardSig "tx" 3000] := is_low (by simp) (by simp [heardSig])

theorem use_low (n : ℕ) (hn : n ≤ 4) (ts : List Int) (hl : ts.length = n) :
    FloorInUse [exLevel, attic] ((3000, [heardSig "tx" 1000, heardSig "tx" 3000]) :: ts.map (fun t => (t, [heardSig "ty" t]))) exLevel := by
  refine ⟨by simp, exLevel :: ts.map (fun _ => attic), List.Forall₂.cons low2.1 ?_, ?_⟩
  · clear hl
    induction ts with
    | nil => exact List.Forall₂.nil
    | cons t ts ih => exact List.Forall₂.cons (up_ty t).1 ih
  · rw [List.map_cons, List.map_map, show (Level.id ∘ fun _ : Int => attic) = fun _ => "B" from rfl, List.map_const', hl]
    have := climb_votes n
    rw [if_pos hn] at this
    exact this

theorem use_up : FloorInUse [exLevel, attic] (upWins ++ [(13000, [heardSig "ty" 13000])]) attic ∧
    FloorInUse [exLevel, attic] (upWins ++ [(13000, [heardSig "ty" 13000])] ++ [(15000, [heardSig "ty" 15000])]) attic ∧
    FloorInUse [exLevel, attic] (upWins ++ [(13000, [heardSig "ty" 13000])] ++ [(15000, [heardSig "ty" 15000])] ++ [(17000, [heardSig "tz" 17000])]) attic := by
  have h0 : List.Forall₂ (fun (w : Int × List RadioMeasurement) d => FloorOf [exLevel, attic] w.2 d) upWins [exLevel, attic, attic, attic, attic] :=
    .cons low2.1 (.cons (up_ty _).1 (.cons (up_ty _).1 (.cons (up_ty _).1 (.cons (up_ty _).1 .nil))))
  have h1 := List.rel_append h0 (.cons (up_ty 13000).1 .nil : List.Forall₂ (fun (w : Int × List RadioMeasurement) d => FloorOf [exLevel, attic] w.2 d) [(13000, [heardSig "ty" 13000])] [attic])
  have h2 := List.rel_append h1 (.cons (up_ty 15000).1 .nil : List.Forall₂ (fun (w : Int × List RadioMeasurement) d => FloorOf [exLevel, attic] w.2 d) [(15000, [heardSig "ty" 15000])] [attic])
  have h3 := List.rel_append h2 (.cons (up_tz 17000).1 .nil : List.Forall₂ (fun (w : Int × List RadioMeasurement) d => FloorOf [exLevel, attic] w.2 d) [(17000, [heardSig "tz" 17000])] [attic])
  exact ⟨⟨by simp, _, h1, rfl⟩, ⟨by simp, _, h2, rfl⟩, ⟨by simp, _, h3, rfl⟩⟩

theorem nothing {win : List RadioMeasurement} {lv : Level} (h : onFloor lv win = []) : ¬ ∃ p, FixAt lv (onFloor lv win) p := by
  rintro ⟨p, b, t, ⟨⟨m, hm, -⟩, -⟩, -⟩
  rw [h] at hm
  cases hm

theorem fix_ty (t : Int) : FixAt attic (onFloor attic [heardSig "ty" t]) ⟨4, 0⟩ := by
  rw [(up_ty t).2.1]
  exact ⟨"ty", farTx, strongest_only (by simp) (by simp [heardSig]), by rw [attic_tx]; simp, rfl,
    by simp [Estim.Box.Covers, attic, Level.addTransmitters]; norm_num⟩

theorem fix_tz (t : Int) : FixAt attic (onFloor attic [heardSig "tz" t]) ⟨8, 0⟩ := by
  rw [(up_tz t).2.1]
  exact ⟨"tz", endTx, strongest_only (by simp) (by simp [heardSig]), by rw [attic_tx]; simp, rfl,
    by simp [Estim.Box.Covers, attic, Level.addTransmitters]; norm_num⟩

theorem fix_tx : FixAt exLevel (onFloor exLevel [heardSig "tx" 1000, heardSig "tx" 3000]) ⟨0, 0⟩ := by
  rw [low2.2]
  exact ⟨"tx", exTx, strongest_only (by simp) (by simp [heardSig]), by rw [low_tx]; simp, rfl,
    by simp [Estim.Box.Covers, exLevel, bareLevel, Level.addTransmitters]⟩

theorem upWins_fixes : floorFixes [exLevel, attic] upWins = [(exLevel, ⟨3000, ⟨0, 0⟩⟩)] := by
  have hm := houseClient.map
  have e1 := C124_new_fix hm (ws := []) (use_low 0 (by norm_num) [] rfl) fix_tx
  have e2 := C124_no_fix hm (ws := [(3000, [heardSig "tx" 1000, heardSig "tx" 3000])]) (t := 5000) (win := [heardSig "ty" 5000])
    (use_low 1 (by norm_num) [5000] rfl) (nothing (up_ty _).2.2)
  have e3 := C124_no_fix hm (ws := [(3000, [heardSig "tx" 1000, heardSig "tx" 3000]), (5000, [heardSig "ty" 5000])]) (t := 7000) (win := [heardSig "ty" 7000])
    (use_low 2 (by norm_num) [5000, 7000] rfl) (nothing (up_ty _).2.2)
  have e4 := C124_no_fix hm (ws := [(3000, [heardSig "tx" 1000, heardSig "tx" 3000]), (5000, [heardSig "ty" 5000]), (7000, [heardSig "ty" 7000])])
    (t := 9000) (win := [heardSig "ty" 9000]) (use_low 3 (by norm_num) [5000, 7000, 9000] rfl) (nothing (up_ty _).2.2)
  have e5 := C124_no_fix hm (ws := [(3000, [heardSig "tx" 1000, heardSig "tx" 3000]), (5000, [heardSig "ty" 5000]), (7000, [heardSig "ty" 7000]),
    (9000, [heardSig "ty" 9000])]) (t := 11000) (win := [heardSig "ty" 11000]) (use_low 4 (by norm_num) [5000, 7000, 9000, 11000] rfl) (nothing (up_ty _).2.2)
  exact e5.trans (e4.trans (e3.trans (e2.trans e1)))

theorem up5_fixes : floorFixes [exLevel, attic] (upWins ++ [(13000, [heardSig "ty" 13000])]) =
    [(exLevel, ⟨3000, ⟨0, 0⟩⟩)] ++ [(attic, ⟨13000, ⟨4, 0⟩⟩)] := by
  rw [C124_new_fix houseClient.map use_up.1 (fix_ty _), upWins_fixes]

theorem up7_fixes : floorFixes [exLevel, attic]
    (upWins ++ [(13000, [heardSig "ty" 13000])] ++ [(15000, [heardSig "ty" 15000])] ++ [(17000, [heardSig "tz" 17000])]) =
    [(exLevel, ⟨3000, ⟨0, 0⟩⟩), (attic, ⟨13000, ⟨4, 0⟩⟩), (attic, ⟨15000, ⟨4, 0⟩⟩), (attic, ⟨17000, ⟨8, 0⟩⟩)] := by
  rw [C124_new_fix houseClient.map use_up.2.2 (fix_tz _), C124_new_fix houseClient.map use_up.2.1 (fix_ty _), up5_fixes]
  rfl

theorem up7_journey : ∃ j, journey houseCfg.cs houseCfg.env.allowed
    [(exLevel, ⟨3000, ⟨0, 0⟩⟩), (attic, ⟨13000, ⟨4, 0⟩⟩), (attic, ⟨15000, ⟨4, 0⟩⟩), (attic, ⟨17000, ⟨8, 0⟩⟩)] = some j ∧ j.motion.place = ⟨6, 0⟩ := by
  have hne : exLevel ≠ attic := fun h => by
    have := congrArg Level.id h
    exact absurd this (by decide)
  have hwt : weight houseCfg.cs = 1 / 2 := by unfold weight; simp [houseCfg]; norm_num
  have a2 : advance houseCfg.cs houseCfg.env.allowed (some (advance houseCfg.cs houseCfg.env.allowed none (exLevel, ⟨3000, ⟨0, 0⟩⟩)))
      (attic, ⟨13000, ⟨4, 0⟩⟩) = ⟨attic, Motion.rest ⟨13000, ⟨4, 0⟩⟩, false⟩ := by
    unfold advance
    simp [hne]
  have a3 : advance houseCfg.cs houseCfg.env.allowed (some ⟨attic, Motion.rest ⟨13000, ⟨4, 0⟩⟩, false⟩) (attic, ⟨15000, ⟨4, 0⟩⟩) =
      ⟨attic, Motion.rest ⟨15000, ⟨4, 0⟩⟩, true⟩ := by
    unfold advance
    simp
  have a4 : advance houseCfg.cs houseCfg.env.allowed (some ⟨attic, Motion.rest ⟨15000, ⟨4, 0⟩⟩, true⟩) (attic, ⟨17000, ⟨8, 0⟩⟩) =
      ⟨attic, (Motion.rest ⟨15000, ⟨4, 0⟩⟩).follow houseCfg.cs (houseCfg.env.allowed attic) ⟨17000, ⟨8, 0⟩⟩, true⟩ := by
    unfold advance
    simp
  refine ⟨_, by unfold journey; rw [List.foldl_cons, List.foldl_cons, List.foldl_cons, List.foldl_cons, List.foldl_nil, a2, a3, a4], ?_⟩
  dsimp only
  unfold Motion.follow Motion.rest
  simp only [hwt]
  rw [if_neg]
  · norm_num
  · rintro (h | ⟨-, h⟩ | ⟨-, h⟩)
    · norm_num at h
    · refine absurd h (not_lt.mpr (Real.sqrt_le_iff.mpr ⟨by norm_num, ?_⟩))
      rw [hwt]
      push_cast
      norm_num
    · exact h trivial

theorem attic_shown {x : ℤ} (h0 : 0 ≤ x) (h10 : x ≤ 10) : shown attic.geometry.boundingBox ⟨(x : ℝ), 0⟩ = ⟨(x : ℝ), 0⟩ := by
  have h0' : (0 : ℝ) ≤ x := by exact_mod_cast h0
  have h10' : (x : ℝ) ≤ 10 := by exact_mod_cast h10
  simp only [shown, downToCm, attic, Level.addTransmitters]
  rw [max_eq_left h0', min_eq_left h10', show min (max (0 : ℝ) 0) 10 = 0 by norm_num,
    show (x : ℝ) * 100 = ((x * 100 : Int) : ℝ) by push_cast; ring, Int.floor_intCast]
  push_cast
  norm_num

/-- **C124** is about possible histories: a client with default settings in a house hears two signals of the beacon downstairs, at the
origin, and then, every two seconds, six signals of a beacon upstairs, at (4, 0), and one of another beacon upstairs, at (8, 0). The answer
to the fifth signal upstairs names the upper floor and shows (4, 0), with nothing of the place downstairs; the answer to the last signal shows
(6, 0), half way from one beacon to the other. -/
theorem C124_example (g : Garbage) :
    (∃ s outs s' out dbg, navigateAll houseCfg (init houseCfg g) [up4] = .ok (s, outs) ∧ navigate houseCfg s [sig "ty" 13000] = .ok (s', [(out, dbg)]) ∧
      out.status = .OK ∧ out.posLevel = "B" ∧ (⟨out.posLatitude, out.posLongitude⟩ : Geo.GeoPoint) = Geo.localToGps ⟨4, 0⟩ ⟨0, 0⟩) ∧
    (∃ s outs s' out dbg, navigateAll houseCfg (init houseCfg g) [up6] = .ok (s, outs) ∧ navigate houseCfg s [sig "tz" 17000] = .ok (s', [(out, dbg)]) ∧
      out.status = .OK ∧ out.posLevel = "B" ∧ (⟨out.posLatitude, out.posLongitude⟩ : Geo.GeoPoint) = Geo.localToGps ⟨6, 0⟩ ⟨0, 0⟩) := by
  have hdead : ⌊1000 * houseCfg.cs.deadReckoningTime⌋ = 5000 := by
    have : (1000 : ℝ) * houseCfg.cs.deadReckoningTime = ((5000 : Int) : ℝ) := by
      simp [houseCfg]; norm_num
    rw [this, Int.floor_intCast]
  have hcs : houseCfg.cs = {} := rfl
  have hsm : SmoothZones houseCfg.cs := C123_default
  constructor
  · obtain ⟨s, outs, h1, -⟩ := C79_total houseClient g [up4]
    have htk : taken [up4] = up4 := by simp [taken, records_ordered up4 (by simp [Ordered, up4, sig])]
    obtain ⟨cl, hcut⟩ := up5_cut
    obtain ⟨s', out, dbg, lv, t0, win, b, t, h2, h3, h6, h7, h8, -, h9, -⟩ := C124_answer houseClient hsm g [up4] h1 (sig "ty" 13000)
      (by rw [htk]; simp [up4, sig])
      ⟨up4, sig "ty" 13000, [], by rw [htk], ⟨_, rfl, house_admitted (.inr (.inl rfl))⟩, by simp, (by change (13000 : Int) < 13000 + 1000 * 35; omega)⟩
      (by rw [htk, hcut.2]; simp)
    rw [htk, hcut.2] at h3 h6 h9
    obtain ⟨rfl, -⟩ := C118_unique houseClient.map use_up.1 h3
    obtain ⟨rfl, rfl⟩ := lastHeard_unique (lastHeard_now upWins 13000 (by rw [(up_ty _).2.1]; simp)) h6
    rw [(up_ty _).2.1] at h7
    have hb := strongest_unique h7 (strongest_only (by simp) (by simp [heardSig]) : Strongest _ "ty")
    subst hb
    rw [attic_tx, if_pos rfl, Option.some.injEq] at h8
    subst h8
    obtain ⟨a1, a2, -, ⟨j, a3, -, a4⟩, -⟩ := h9 ⟨by simp [Estim.Box.Covers, attic, Level.addTransmitters, farTx]; norm_num, by rw [hdead]; simp [sig]⟩
    rw [up5_fixes] at a3
    obtain ⟨j', e1, -, e3⟩ := C124_arrive houseCfg.cs houseCfg.env.allowed [] (exLevel, ⟨3000, ⟨0, 0⟩⟩) (attic, ⟨13000, ⟨4, 0⟩⟩) (fun h => by
      have := congrArg Level.id h
      exact absurd this (by decide))
    rw [List.nil_append, a3, Option.some.injEq] at e1
    subst e1
    refine ⟨s, outs, s', out, dbg, h1, h2, a1, a2, ?_⟩
    rw [a4, e3]
    have := attic_shown (x := 4) (by norm_num) (by norm_num)
    norm_num at this
    rw [show (Motion.rest ⟨13000, ⟨4, 0⟩⟩).place = ⟨4, 0⟩ from rfl, this]
    rfl
  · obtain ⟨s, outs, h1, -⟩ := C79_total houseClient g [up6]
    have htk : taken [up6] = up6 := by simp [taken, records_ordered up6 (by simp [Ordered, up6, up4, sig])]
    obtain ⟨cl, hcut⟩ := up7_cut
    obtain ⟨s', out, dbg, lv, t0, win, b, t, h2, h3, h6, h7, h8, -, h9, -⟩ := C124_answer houseClient hsm g [up6] h1 (sig "tz" 17000)
      (by rw [htk]; simp [up6, up4, sig])
      ⟨up6, sig "tz" 17000, [], by rw [htk], ⟨_, rfl, house_admitted (.inr (.inr rfl))⟩, by simp, (by change (17000 : Int) < 17000 + 1000 * 35; omega)⟩
      (by rw [htk, hcut.2]; simp)
    rw [htk, hcut.2] at h3 h6 h9
    obtain ⟨rfl, -⟩ := C118_unique houseClient.map use_up.2.2 h3
    obtain ⟨rfl, rfl⟩ := lastHeard_unique (lastHeard_now _ 17000 (by rw [(up_tz _).2.1]; simp)) h6
    rw [(up_tz _).2.1] at h7
    have hb := strongest_unique h7 (strongest_only (by simp) (by simp [heardSig]) : Strongest _ "tz")
    subst hb
    rw [attic_tx, if_neg (by decide), if_pos rfl, Option.some.injEq] at h8
    subst h8
    obtain ⟨a1, a2, -, ⟨j, a3, -, a4⟩, -⟩ := h9 ⟨by simp [Estim.Box.Covers, attic, Level.addTransmitters, endTx]; norm_num, by rw [hdead]; simp [sig]⟩
    rw [up7_fixes] at a3
    obtain ⟨j', e1, e3⟩ := up7_journey
    rw [a3, Option.some.injEq] at e1
    subst e1
    refine ⟨s, outs, s', out, dbg, h1, h2, a1, a2, ?_⟩
    rw [a4, e3]
    have := attic_shown (x := 6) (by norm_num) (by norm_num)
    norm_num at this
    rw [this]
    rfl

end Verif.Track
