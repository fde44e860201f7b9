import Verif.Floors.Props
import Verif.Track.SettleProps

/-!
# C123: a hall with two beacons
-/

namespace Verif.Track

open Verif.Levels Verif.Nav Verif.Floors
open Verif.Geo (XYPoint)
open Verif.Knn (Result)
open Verif.Smooth

/-- A beacon four metres east of the other one. -/
noncomputable def farTx : Transmitter XYZPoint := ⟨"ty", ⟨4, 0, 0⟩, ⟨-59, 10, 0⟩, .BEACON⟩

/-- A hall of ten metres with two beacons. -/
noncomputable def hall : Level :=
  Level.addTransmitters ⟨"A", ⟨0, 0⟩, [], mkRadiomap [], ⟨[], ⟨⟨0, 0⟩, ⟨10, 10⟩⟩, []⟩, NavGraph.empty⟩ [exTx, farTx]

/-- A client with default settings. -/
noncomputable def hallCfg : Cfg where
  env := exEnv
  cs := {}
  levels := collect [hall]
  noSignal := 35000
  noAction := 20000
  detector := .transmitters false
  indoor := .zone [("A", -59)] [("A", 10)]
  pre := Radio.mkCfg (collect [hall]) {}
  fusion := Fusion.fusionConfig {}

theorem hallClient : Client [hall] hallCfg where
  map := by
    refine ⟨by simp, ?_, ?_, ?_⟩ <;> intro l hl <;> rw [List.mem_singleton] at hl <;> rw [hl]
    · simp [hall, Level.addTransmitters]
    · rfl
    · exact ⟨[], rfl⟩
  settings := ⟨fun h => (by cases h), fun h => (by cases h)⟩
  sort := sortsBy_insertionSort _
  radioSorts := Radio.insertionSorts_lawful
  built := by
    refine ⟨[("A", ⟨-59, 10⟩)], ?_⟩
    have hz : Estim.zoneParams [("A", ⟨-59, 10⟩)] (collect [hall]) = some ([("A", -59)], [("A", 10)]) := by
      simp [Estim.zoneParams, collect_levels, hall, Level.addTransmitters, List.foldlM, StdMap.find?, StdMap.set,
        StdMap.insertSorted]
    unfold mkCfg createPositionEstimator
    rw [if_neg (by simp [hallCfg])]
    have : Estim.zoneParams [("A", ⟨-59, 10⟩)] (collect [hall]) = some ([("A", -59)], [("A", 10)]) := hz
    rw [this]
    simp [hallCfg, createLevelEstimator]

theorem hall_txs : hall.transmitters = [("tx", exTx), ("ty", farTx)] := by
  have hyx : ¬ ("ty" < "tx") := not_lt.mpr (le_of_lt (String.lt_iff_toList_lt.mpr (by decide)))
  simp [hall, Level.addTransmitters, exTx, farTx, StdMap.insert, StdMap.insertSorted, StdMap.find?]
  simpa using hyx

theorem hall_tx : hall.transmitter "tx" = some exTx ∧ hall.transmitter "ty" = some farTx := by
  unfold Level.transmitter
  rw [hall_txs]
  simp [StdMap.find?]

theorem hall_admitted {id : String} (h : id = "tx" ∨ id = "ty") : Radio.Admissible [hall] hallCfg.cs ⟨.BEACON, id, -70, 0, 0, 0⟩ := by
  refine ⟨?_, ?_, ?_, ?_⟩
  · simp [Radio.TypeEnabled, hallCfg]
  · intro _; simp [hallCfg]; norm_num
  · intro h; exact absurd rfl h
  · right
    rcases h with rfl | rfl
    · exact ⟨exTx, ⟨hall, rfl, by rw [hall_txs]; simp [exTx], rfl⟩, by simp [exTx, hallCfg]⟩
    · exact ⟨farTx, ⟨hall, rfl, by rw [hall_txs]; simp [farTx], rfl⟩, by simp [farTx, hallCfg]⟩

theorem hall_span : spanOf hallCfg.cs = 1000 := by simp [spanOf, hallCfg]

/-- The windows of a history in the hall. -/
def HallCut (ms : List Measurement) (w : Windows) (ws : List (Int × List RadioMeasurement)) : Prop :=
  windows [hall] hallCfg.cs ms = w ∧ closedWindows [hall] hallCfg.cs ms = ws

theorem hall_first {id : String} (h : id = "tx" ∨ id = "ty") (t : Int) : HallCut [sig id t] ⟨some t, [heardSig id t], none⟩ [] := by
  have hw : windows [hall] hallCfg.cs [sig id t] = ⟨some t, [heardSig id t], none⟩ := by
    rw [show [sig id t] = [] ++ [sig id t] from rfl, windows_snoc]
    unfold sig
    rw [take_heard _ (hall_admitted h), hall_span]
    simp [Windows.hear, windows, heardSig]
  refine ⟨hw, ?_⟩
  rw [show [sig id t] = [] ++ [sig id t] from rfl, closedWindows_snoc, if_neg, closedWindows_nil]
  · rfl
  · rintro ⟨-, hcl⟩
    rw [hall_span] at hcl
    simp [windows] at hcl

theorem hall_next {ms : List Measurement} {t0 : Int} {pend : List RadioMeasurement} {cl : Option (Int × List RadioMeasurement)}
    {ws : List (Int × List RadioMeasurement)} (hc : HallCut ms ⟨some t0, pend, cl⟩ ws) {id : String} (h : id = "tx" ∨ id = "ty") {t : Int}
    (ht : t0 + 1000 ≤ t) : HallCut (ms ++ [sig id t]) ⟨some t, [], some (t, pend ++ [heardSig id t])⟩ (ws ++ [(t, pend ++ [heardSig id t])]) := by
  have hw : windows [hall] hallCfg.cs (ms ++ [sig id t]) = ⟨some t, [], some (t, pend ++ [heardSig id t])⟩ := by
    rw [windows_snoc, hc.1]
    unfold sig
    rw [take_heard _ (hall_admitted h), hall_span]
    unfold Windows.hear
    rw [if_pos (by simp only [Option.getD_some]; omega)]
    rfl
  refine ⟨hw, ?_⟩
  rw [closedWindows_snoc, if_pos, hw, hc.2]
  · rfl
  · refine ⟨⟨_, rfl, hall_admitted h⟩, ?_⟩
    rw [hall_span, hc.1]
    simp only [Option.getD_some, sig]
    omega

/-- Three signals of the beacon at the origin. -/
noncomputable def stay : List Measurement := [sig "tx" 1000, sig "tx" 3000, sig "tx" 5000]

/-- Then signals of the other one, every two seconds. -/
noncomputable def arrive (n : ℕ) : List Measurement := (List.range n).map (fun k : ℕ => sig "ty" (7000 + 2000 * (k : Int)))

noncomputable def stayed : List (Int × List RadioMeasurement) :=
  [(3000, [heardSig "tx" 1000, heardSig "tx" 3000]), (5000, [heardSig "tx" 5000])]

noncomputable def arrived (n : ℕ) : List (Int × List RadioMeasurement) :=
  (List.range n).map (fun k : ℕ => (7000 + 2000 * (k : Int), [heardSig "ty" (7000 + 2000 * k)]))

theorem arrive_succ (n : ℕ) : arrive (n + 1) = arrive n ++ [sig "ty" (7000 + 2000 * n)] := by
  simp [arrive, List.range_succ]

theorem arrived_succ (n : ℕ) : arrived (n + 1) = arrived n ++ [(7000 + 2000 * (n : Int), [heardSig "ty" (7000 + 2000 * n)])] := by
  simp [arrived, List.range_succ]

theorem hall_cut (n : ℕ) : ∃ cl, HallCut (stay ++ arrive n) ⟨some (5000 + 2000 * n), [], cl⟩ (stayed ++ arrived n) := by
  induction n with
  | zero =>
    have h1 := hall_next (hall_next (hall_first (.inl rfl) 1000) (.inl rfl) (t := 3000) (by norm_num)) (.inl rfl) (t := 5000) (by norm_num)
    exact ⟨_, by simpa [stay, stayed, arrive, arrived] using h1⟩
  | succ n ih =>
    obtain ⟨cl, ih⟩ := ih
    have h1 := hall_next ih (.inr rfl) (t := 7000 + 2000 * n) (by omega)
    refine ⟨some (7000 + 2000 * n, [heardSig "ty" (7000 + 2000 * n)]), ?_⟩
    rw [arrive_succ, arrived_succ, ← List.append_assoc, ← List.append_assoc]
    have e1 : (5000 : Int) + 2000 * ((n + 1 : ℕ) : Int) = 7000 + 2000 * n := by push_cast; ring
    rw [e1]
    exact h1

theorem arrive_times (n : ℕ) : Ordered (arrive n) ∧ ∀ e ∈ arrive n, 0 < e.ts ∧ e.ts ≤ 5000 + 2000 * n := by
  induction n with
  | zero => simp [arrive, Ordered]
  | succ n ih =>
    rw [arrive_succ]
    constructor
    · unfold Ordered
      rw [List.pairwise_append]
      refine ⟨ih.1, by simp, ?_⟩
      intro a ha b hb
      rw [List.mem_singleton] at hb
      rw [hb]
      have := (ih.2 a ha).2
      simp only [sig]
      omega
    · intro e he
      rcases List.mem_append.mp he with he | he
      · have := ih.2 e he
        push_cast
        omega
      · rw [List.mem_singleton] at he
        rw [he]
        simp only [sig]
        push_cast
        omega

theorem hall_taken (n : ℕ) : taken [stay] = stay ∧ taken ([stay] ++ [arrive n]) = stay ++ arrive n := by
  have h1 : records stay = stay := records_ordered _ (by simp [Ordered, stay, sig])
  have h2 : records (arrive n) = arrive n := records_ordered _ (arrive_times n).1
  constructor <;> simp [taken, h1, h2]

theorem strongest_only {win : List RadioMeasurement} {id : String} (hne : win ≠ []) (h : ∀ m ∈ win, m.data.id = id) : Strongest win id := by
  refine ⟨?_, ?_⟩
  · obtain ⟨m, hm⟩ := List.exists_mem_of_ne_nil _ hne
    exact ⟨m, hm, h m hm⟩
  · intro m hm
    right
    rw [h m hm]
    exact ⟨rfl, le_refl _⟩

theorem fix_near {win : List RadioMeasurement} (hne : win ≠ []) (h : ∀ m ∈ win, m.data.id = "tx") : FixAt hall win ⟨0, 0⟩ :=
  ⟨"tx", exTx, strongest_only hne h, hall_tx.1, rfl, by simp [Estim.Box.Covers, hall, Level.addTransmitters]⟩

theorem fix_far {win : List RadioMeasurement} (hne : win ≠ []) (h : ∀ m ∈ win, m.data.id = "ty") : FixAt hall win ⟨4, 0⟩ :=
  ⟨"ty", farTx, strongest_only hne h, hall_tx.2, rfl, by simp [Estim.Box.Covers, hall, Level.addTransmitters]; norm_num⟩

theorem stayed_fixes : fixesOf hall hallCfg.cs stay = [⟨3000, ⟨0, 0⟩⟩, ⟨5000, ⟨0, 0⟩⟩] := by
  obtain ⟨cl, hc⟩ := hall_cut 0
  have : closedWindows [hall] hallCfg.cs stay = stayed := by simpa [arrive, arrived] using hc.2
  unfold fixesOf
  rw [this, fixes_same (p := ⟨0, 0⟩)]
  · rfl
  · intro w hw
    simp only [stayed, List.mem_cons, List.not_mem_nil, or_false] at hw
    rcases hw with rfl | rfl
    · exact fix_near (by simp) (by simp [heardSig])
    · exact fix_near (by simp) (by simp [heardSig])

theorem arrived_far (n : ℕ) : ∀ w ∈ arrived n, FixAt hall w.2 ⟨4, 0⟩ := by
  intro w hw
  obtain ⟨k, -, rfl⟩ := List.mem_map.mp hw
  exact fix_far (by simp) (by simp [heardSig])

/-- **C123** is about possible histories: a client with default settings in a hall with two beacons, four metres apart, hears the first
one three times and then the second one every two seconds.  Every answer to the second one is OK; the first shows the place half way,
and the places shown come up to a centimetre near to the second beacon, exponentially. -/
theorem C123_example (g : Garbage) :
    ∃ γ C : ℝ, 0 ≤ γ ∧ γ < 1 ∧ ∀ n : ℕ, ∃ s outs s' out dbg q, navigateAll hallCfg (init hallCfg g) ([stay] ++ [arrive n]) = .ok (s, outs) ∧
      navigate hallCfg s [sig "ty" (7000 + 2000 * n)] = .ok (s', [(out, dbg)]) ∧ out.status = .OK ∧ out.posLevel = "A" ∧
      (⟨out.posLatitude, out.posLongitude⟩ : Geo.GeoPoint) = Geo.localToGps q ⟨0, 0⟩ ∧
      |q.x - 4| ≤ C * γ ^ (n + 1) + 1 / 100 ∧ |q.y| ≤ C * γ ^ (n + 1) + 1 / 100 ∧
      (n = 0 → (⟨out.posLatitude, out.posLongitude⟩ : Geo.GeoPoint) = Geo.localToGps ⟨2, 0⟩ ⟨0, 0⟩) := by
  obtain ⟨γ, g0, g1, hset⟩ := C123_settles hallClient C123_default (by norm_num) (by norm_num) C123_settles_default.1 C123_settles_default.2
  obtain ⟨C, -, hC⟩ := hset g [stay] ⟨4, 0⟩
  refine ⟨γ, C, g0, g1, fun n => ?_⟩
  obtain ⟨s, outs, h1, -⟩ := C79_total hallClient g ([stay] ++ [arrive n])
  obtain ⟨t1, t2⟩ := hall_taken n
  have hsnoc : taken ([stay] ++ [arrive n]) ++ [sig "ty" (7000 + 2000 * n)] = stay ++ arrive (n + 1) := by
    rw [t2, arrive_succ, List.append_assoc]
  have hdead : ⌊1000 * hallCfg.cs.deadReckoningTime⌋ = 5000 := by
    have : (1000 : ℝ) * hallCfg.cs.deadReckoningTime = ((5000 : Int) : ℝ) := by
      simp [hallCfg]; norm_num
    rw [this, Int.floor_intCast]
  have hstay : closedWindows [hall] hallCfg.cs stay = stayed := by
    obtain ⟨cl, hc⟩ := hall_cut 0
    simpa [arrive, arrived] using hc.2
  have hclosed : ∀ k, closedWindows [hall] hallCfg.cs (stay ++ arrive k) = stayed ++ arrived k := fun k => (hall_cut k).choose_spec.2
  have hpos : ∀ e ∈ taken ([stay] ++ [arrive n]) ++ [sig "ty" (7000 + 2000 * n)], 0 < e.ts := by
    rw [hsnoc]
    intro e he
    rcases List.mem_append.mp he with he | he
    · simp only [stay, List.mem_cons, List.not_mem_nil, or_false] at he
      rcases he with rfl | rfl | rfl <;> simp [sig]
    · exact ((arrive_times (n + 1)).2 e he).1
  have hfresh : Fresh [hall] hallCfg.cs (taken ([stay] ++ [arrive n])) (sig "ty" (7000 + 2000 * n)) :=
    ⟨stay ++ arrive n, sig "ty" (7000 + 2000 * n), [], by rw [t2], ⟨_, rfl, hall_admitted (.inr rfl)⟩, by simp,
      (by change 7000 + 2000 * (n : Int) < 7000 + 2000 * (n : Int) + 1000 * 35; omega)⟩
  obtain ⟨s', out, dbg, q, e1, e2, e3, e4, e5, e6⟩ := hC [arrive n] (sig "ty" (7000 + 2000 * n)) s outs (arrived (n + 1)) h1 hpos hfresh
    (by rw [hsnoc, hclosed, t1, hstay])
    (arrived_far (n + 1))
    (by
      rw [t1, stayed_fixes]
      have hlist : (([⟨3000, ⟨0, 0⟩⟩, ⟨5000, ⟨0, 0⟩⟩] : List Fix).getLast?.map Fix.time).toList ++ (arrived (n + 1)).map (·.1) =
          (List.range (n + 2)).map (fun k : ℕ => (5000 + 2000 * (k : Int))) := by
        rw [show n + 2 = (n + 1) + 1 by ring, List.range_succ_eq_map]
        simp only [List.map_cons, List.map_map, arrived]
        simp
        intro a ha
        ring
      rw [hlist]
      intro before a b c after he
      have hget : ∀ (i : ℕ) (x : Int), ((List.range (n + 2)).map (fun k : ℕ => (5000 + 2000 * (k : Int))))[i]? = some x → x = 5000 + 2000 * (i : Int) := by
        intro i x hx
        rw [List.getElem?_map] at hx
        by_cases hi : i < n + 2
        · rw [List.getElem?_range hi, Option.map_some, Option.some.injEq] at hx
          exact hx.symm
        · rw [List.getElem?_eq_none (by simpa using hi)] at hx
          cases hx
      have ha := hget before.length a (by rw [he]; simp)
      have hb := hget (before.length + 1) b (by rw [he]; simp)
      have hcc := hget (before.length + 2) c (by rw [he]; simp)
      have d1 : b - a = 2000 := by rw [ha, hb]; push_cast; ring
      have d2 : c - b = 2000 := by rw [hb, hcc]; push_cast; ring
      rw [d1, d2]
      norm_num)
    (by
      intro w hw
      rw [arrived_succ, List.getLast?_concat, Option.some.injEq] at hw
      rw [← hw, hdead]
      simp [sig])
    (by rw [arrived_succ]; simp)
  rw [show (arrived (n + 1)).length = n + 1 by simp [arrived]] at e5 e6
  refine ⟨s, outs, s', out, dbg, q, h1, e1, e2, e3, e4, e5, by simpa using e6, ?_⟩
  rintro rfl
  have hw : (windows [hall] hallCfg.cs (taken ([stay] ++ [arrive 0]) ++ [sig "ty" (7000 + 2000 * (0 : ℕ))])).closed =
      some (7000, [heardSig "ty" 7000]) := by
    rw [hsnoc, ← closed_last, hclosed]
    simp [arrived, List.range_succ]
  obtain ⟨s2, out2, dbg2, b, t, f1, hstr, htx, -, hin, -⟩ := C123_answer hallClient C123_default g _ h1 _ hpos hfresh hw
  rw [e1] at f1
  simp only [Result.ok.injEq, Prod.mk.injEq, List.cons.injEq, and_true] at f1
  obtain ⟨-, rfl, -⟩ := f1
  have hb : b = "ty" := strongest_unique hstr (strongest_only (by simp) (by simp [heardSig]))
  subst hb
  rw [hall_tx.2] at htx
  cases htx
  obtain ⟨-, -, -, ⟨k, hk, e⟩, -⟩ := hin ⟨by simp [Estim.Box.Covers, hall, Level.addTransmitters, farTx]; norm_num, by rw [hdead]; simp [sig]⟩
  have hfs : fixesOf hall hallCfg.cs (taken ([stay] ++ [arrive 0]) ++ [sig "ty" (7000 + 2000 * (0 : ℕ))]) =
      [⟨3000, ⟨0, 0⟩⟩, ⟨5000, ⟨0, 0⟩⟩, ⟨7000, ⟨4, 0⟩⟩] := by
    have h0 := stayed_fixes
    unfold fixesOf at h0 ⊢
    rw [hsnoc, hclosed, fixes_append, fixes_same (arrived_far 1), ← hstay, h0]
    simp [arrived, List.range_succ]
  rw [hfs] at hk
  have hwt : weight hallCfg.cs = 1 / 2 := by unfold weight; simp [hallCfg]; norm_num
  have hkp : k.place = ⟨2, 0⟩ := by
    simp only [track, List.foldl_cons, List.foldl_nil, Option.some.injEq] at hk
    rw [← hk]
    unfold Motion.follow Motion.rest
    simp only [hwt]
    rw [if_neg]
    · norm_num
    · rintro (h | ⟨-, h⟩ | ⟨-, h⟩)
      · norm_num at h
      · clear * - h hwt
        refine absurd h (not_lt.mpr (Real.sqrt_le_iff.mpr ⟨by norm_num, ?_⟩))
        rw [hwt]
        push_cast
        norm_num
      · exact h trivial
  rw [e, hkp]
  have : shown hall.geometry.boundingBox ⟨2, 0⟩ = ⟨2, 0⟩ := by
    simp only [shown, downToCm, hall, Level.addTransmitters]
    rw [show min (max (2 : ℝ) 0) 10 = 2 by norm_num, show min (max (0 : ℝ) 0) 10 = 0 by norm_num,
      show (2 : ℝ) * 100 = ((200 : Int) : ℝ) by norm_num, Int.floor_intCast]
    norm_num
  rw [this]
  rfl

end Verif.Track
