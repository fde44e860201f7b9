import Verif.Pressure.Idle

/-!
# C127: a client that never finds its floor
-/

namespace Verif.Pressure

open Verif.Levels Verif.Nav Verif.Floors
open Verif.Knn (Result)

/-- The same client with the barometer switched on. -/
def withBarometer (c : Cfg) : Cfg := { c with cs := { c.cs with useBarometer := true } }

theorem with_client {ls : List Level} {c : Cfg} (hc : Client ls c) : Client ls (withBarometer c) where
  map := hc.map
  settings := ⟨hc.settings.1, hc.settings.2⟩
  sort := hc.sort
  radioSorts := hc.radioSorts
  built := by
    obtain ⟨lss, h⟩ := hc.built
    refine ⟨lss, ?_⟩
    unfold mkCfg at h ⊢
    obtain ⟨i, h1, h2⟩ := Option.map_eq_some_iff.mp h
    refine Option.map_eq_some_iff.mpr ⟨i, ?_, ?_⟩
    · exact h1
    · rw [← h2]
      rfl

theorem with_settings {cs : CommonSettings} (h : PlainZones cs) : PressureZones { cs with useBarometer := true } where
  shift := h.shift
  span := h.span
  closest := h.closest
  timeSmoothing := h.timeSmoothing
  stops := h.stops
  graph := h.graph
  gps := h.gps
  instantGps := h.instantGps
  outside := h.outside
  reckoning := h.reckoning
  noSignal := h.noSignal
  noAction := h.noAction
  algorithm := h.algorithm
  radiomap := h.radiomap
  txPower := h.txPower
  unknown := h.unknown
  strength := h.strength
  cutOff := h.cutOff
  barometer := rfl
  smoothing := h.smoothing

/-- A pressure of 1013 hPa. -/
noncomputable def press (t : Int) : Measurement := ⟨.sensor ⟨.BAROMETER, ⟨1013, 0, 0⟩⟩, t⟩

/-- Constant pressure: the first measurement is a pressure of 1013 hPa, and so are all sensor measurements. -/
def Calm (ms : List Measurement) : Prop :=
  (∀ m, ms.head? = some m → ∃ t, m = press t) ∧ ∀ m ∈ ms, ∀ d, m.data = .sensor d → d = ⟨.BAROMETER, ⟨1013, 0, 0⟩⟩

theorem calm_prefix {a b : List Measurement} (h : Calm (a ++ b)) : Calm a := by
  refine ⟨fun m hm => h.1 m ?_, fun m hm => h.2 m (by simp [hm])⟩
  cases a with
  | nil => cases hm
  | cons x a => exact hm

theorem calm_counted (g : Garbage) (ms : List Measurement) (h : Calm ms) : counted g ms = List.replicate (ms.length - 1) 1013 := by
  have hs : ∀ ms : List Measurement, ms ≠ [] → Calm ms → (lastSensor g.sensor ms).data = ⟨.BAROMETER, ⟨1013, 0, 0⟩⟩ := by
    intro ms
    induction ms using List.reverseRecOn with
    | nil => intro h; exact absurd rfl h
    | append_singleton ms m ih =>
      intro _ hc
      rw [lastSensor_snoc]
      by_cases hne : ms = []
      · subst hne
        obtain ⟨t, rfl⟩ := hc.1 m rfl
        rfl
      · cases hd : m.data with
        | sensor d => exact hc.2 m (by simp) d hd
        | radio d => exact ih hne (calm_prefix hc)
        | nmea d => exact ih hne (calm_prefix hc)
  induction ms using List.reverseRecOn with
  | nil => rfl
  | append_singleton ms m ih =>
    by_cases hne : ms = []
    · subst hne; exact counted_small g _ (by simp)
    · have hl : 0 < ms.length := List.length_pos_iff.mpr hne
      rw [counted_snoc g ms m hne, ih (calm_prefix h), pressureSeen_eq, hs _ (by simp) h, if_pos rfl, List.length_append,
        List.length_singleton, show ms.length + 1 - 1 = (ms.length - 1) + 1 by omega, List.replicate_add]
      rfl

theorem lastN_replicate (n k : ℕ) (x : ℝ) : LevelEst.lastN n (List.replicate k x) = List.replicate (min n k) x := by
  unfold LevelEst.lastN
  rw [List.drop_replicate, List.length_replicate]
  congr 1
  omega

theorem calm_still (k : ℕ) : ¬ LevelEst.Climbed (List.replicate k 1013) := by
  rintro ⟨h1, h2, h3⟩
  have e1 : LevelEst.newest (List.replicate k (1013 : ℝ)) = List.replicate (min 101 k) 1013 := lastN_replicate _ _ _
  have e2 : LevelEst.preceding (List.replicate k (1013 : ℝ)) = List.replicate (min 101 (min (k - 101) k)) 1013 := by
    unfold LevelEst.preceding
    rw [List.length_replicate, List.take_replicate, lastN_replicate]
  have hm : ∀ n, Radio.mean (List.replicate n (1013 : ℝ)) = if n = 0 then 0 else 1013 := by
    intro n
    split_ifs with h
    · subst h; simp [Radio.mean]
    · exact LevelEst.mean_replicate n _ h
  rw [e1, hm] at h1 h3
  rw [e2, hm] at h2 h3
  have hp : (0 : ℝ) < 1 / 2 ^ 52 := by norm_num
  split_ifs at h1 h2 h3
  all_goals first | linarith | skip
  rw [div_self (by norm_num), Real.log_one, mul_zero, abs_zero] at h3
  linarith

/-- `k` pressures of 1013 hPa, one every ten milliseconds. -/
noncomputable def still (k : ℕ) : List Measurement := (List.range k).map (fun k : ℕ => press (10 * ((k : Int) + 1)))

theorem still_length (k : ℕ) : (still k).length = k := by simp [still]

theorem still_head (k : ℕ) : (still (k + 1)).head? = some (press 10) := by
  simp [still, List.range_succ_eq_map]

/-- Standing still for two seconds with 203 pressures, and then hearing the beacon of the lower floor every two seconds. -/
noncomputable def stand (n : ℕ) : List Measurement :=
  still 203 ++ (List.range n).map (fun k : ℕ => sig "tx" (3000 + 2000 * (k : Int)))

theorem stand_succ (n : ℕ) : stand (n + 1) = stand n ++ [sig "tx" (3000 + 2000 * n)] := by
  rw [stand, stand, List.range_succ, List.map_append, List.append_assoc]
  rfl

theorem stand_length (n : ℕ) : (stand n).length = 203 + n := by simp [stand, still_length]

theorem stand_calm (n : ℕ) : Calm (stand n) := by
  constructor
  · intro m hm
    refine ⟨10, ?_⟩
    have : (stand n).head? = some (press 10) := by
      rw [stand, List.head?_append, still_head 202]
      rfl
    rw [this] at hm
    cases hm
    rfl
  · intro m hm d hd
    rcases List.mem_append.mp hm with h | h
    · obtain ⟨k, -, rfl⟩ := List.mem_map.mp h
      cases hd
      rfl
    · obtain ⟨k, -, rfl⟩ := List.mem_map.mp h
      cases hd

theorem stand_times (n : ℕ) : Ordered (stand n) ∧ ∀ e ∈ stand n, 0 < e.ts := by
  constructor
  · unfold Ordered stand still
    rw [List.pairwise_append]
    refine ⟨?_, ?_, ?_⟩
    · rw [List.pairwise_map]
      refine List.pairwise_lt_range.imp ?_
      intro a b h
      simp only [press]
      omega
    · rw [List.pairwise_map]
      refine List.pairwise_lt_range.imp ?_
      intro a b h
      simp only [sig]
      omega
    · intro a ha b hb
      obtain ⟨k, hk, rfl⟩ := List.mem_map.mp ha
      obtain ⟨j, -, rfl⟩ := List.mem_map.mp hb
      have := List.mem_range.mp hk
      simp only [press, sig]
      omega
  · intro e he
    rcases List.mem_append.mp he with h | h
    · obtain ⟨k, -, rfl⟩ := List.mem_map.mp h
      simp only [press]
      omega
    · obtain ⟨k, -, rfl⟩ := List.mem_map.mp h
      simp only [sig]
      omega

theorem stand_silent (ls : List Level) (cs : CommonSettings) : ∀ e ∈ stand 0, ¬ Heard ls cs e := by
  rintro e he ⟨d, hd, -⟩
  simp only [stand, List.range_zero, List.map_nil, List.append_nil] at he
  obtain ⟨k, -, rfl⟩ := List.mem_map.mp he
  cases hd

theorem silent_windows (ls : List Level) (cs : CommonSettings) (ms : List Measurement) (h : ∀ e ∈ ms, ¬ Heard ls cs e) :
    closedWindows ls cs ms = [] := by
  induction ms using List.reverseRecOn with
  | nil => rfl
  | append_singleton ms m ih =>
    rw [closedWindows_snoc, if_neg (fun hc => h m (by simp) hc.1), ih (fun e he => h e (by simp [he]))]
    rfl

/-- **C127** is about possible histories, and the floor may never be found: a client stands still and reads 203 pressures within
the first two seconds, before the first window of signals is closed.  Then every signal of the beacon of its floor, however many,
is answered with NO_LEVEL, because the floor could only be taken over after a climb of two metres. -/
theorem C127_never_found (g : Garbage) (n : ℕ) :
    ∃ s outs s' out dbg, navigateAll (withBarometer twoCfg) (init (withBarometer twoCfg) g) [stand n] = .ok (s, outs) ∧
      navigate (withBarometer twoCfg) s [sig "tx" (3000 + 2000 * n)] = .ok (s', [(out, dbg)]) ∧ out.status = .NO_LEVEL := by
  obtain ⟨s, outs, h1, -⟩ := C79_total (with_client twoClient) g [stand n]
  have htk : taken [stand n] = stand n := by simp [taken, records_ordered _ (stand_times n).1]
  have hsnoc : taken [stand n] ++ [sig "tx" (3000 + 2000 * n)] = stand (n + 1) := by rw [htk, stand_succ]
  have hadm : Radio.Admissible [exLevel, upLevel] (withBarometer twoCfg).cs ⟨.BEACON, "tx", -70, 0, 0, 0⟩ :=
    sig_admitted (.inl rfl)
  obtain ⟨s', out, dbg, o, h2, h3, h4, -⟩ := C127_answers (with_client twoClient) (with_settings plain_settings) g [stand n] h1
    (sig "tx" (3000 + 2000 * n)) (by rw [hsnoc]; exact (stand_times (n + 1)).2)
    ⟨stand n, sig "tx" (3000 + 2000 * n), [], by rw [htk], ⟨_, rfl, hadm⟩, by simp,
      (by change 3000 + 2000 * (n : Int) < 3000 + 2000 * (n : Int) + 1000 * 35; omega)⟩
  refine ⟨s, outs, s', out, dbg, h1, h2, ?_⟩
  rw [hsnoc] at h3 h4
  have hsplit : stand (n + 1) = stand 0 ++ (List.range (n + 1)).map (fun k : ℕ => sig "tx" (3000 + 2000 * (k : Int))) := by
    simp [stand]
  have hcount : ∀ a b, stand (n + 1) = a ++ b → counted g a = List.replicate (a.length - 1) 1013 := by
    intro a b e
    exact calm_counted g a (calm_prefix (e ▸ stand_calm (n + 1)))
  have hstuck : FloorUsed [exLevel, upLevel] (withBarometer twoCfg).cs g (stand (n + 1)) none := by
    rw [hsplit]
    refine C127_stuck (silent_windows _ _ _ (stand_silent _ _)) ?_ ?_
    · intro a b e hl
      rw [← hsplit] at e
      rw [hcount a b e, List.length_replicate]
      rw [stand_length] at hl
      omega
    · intro a b e
      rw [← hsplit] at e
      rw [hcount a b e]
      exact calm_still _
  have ho : o = none := used_unique twoClient.map h3 hstuck
  rcases h4 ho with ⟨h5, -⟩ | ⟨-, -, a, e, b, h6, h7⟩
  · exact h5
  · exfalso
    have hc : Calm (a ++ [e]) := calm_prefix (b := b) (by
      have : a ++ [e] ++ b = stand (n + 1) := by rw [h6]; simp
      rw [this]
      exact stand_calm (n + 1))
    have hlast : ∀ ms : List Measurement, ms ≠ [] → Calm ms → (lastSensor g.sensor ms).data.type = .BAROMETER := by
      intro ms
      induction ms using List.reverseRecOn with
      | nil => intro h; exact absurd rfl h
      | append_singleton ms m ih =>
        intro _ hc
        rw [lastSensor_snoc]
        by_cases hne : ms = []
        · subst hne
          obtain ⟨t, rfl⟩ := hc.1 m rfl
          rfl
        · cases hd : m.data with
          | sensor d => rw [hc.2 m (by simp) d hd]
          | radio d => exact ih hne (calm_prefix hc)
          | nmea d => exact ih hne (calm_prefix hc)
    rw [hlast _ (by simp) hc] at h7
    cases h7

theorem silent_cut (ls : List Level) (cs : CommonSettings) (ms : List Measurement) (h : ∀ e ∈ ms, ¬ Heard ls cs e) :
    windows ls cs ms = ⟨none, [], none⟩ := by
  induction ms using List.reverseRecOn with
  | nil => rfl
  | append_singleton ms m ih =>
    rw [windows_snoc, ih (fun e he => h e (by simp [he])), take_not_heard _ (h m (by simp))]

theorem stand_cut (n : ℕ) : ∃ win ws, Cut (stand (n + 2)) ⟨some (5000 + 2000 * n), [], some (5000 + 2000 * (n : Int), win)⟩
    (ws ++ [(5000 + 2000 * (n : Int), win)]) ∧ win ≠ [] ∧ ∀ w ∈ ws ++ [(5000 + 2000 * (n : Int), win)], ∀ m ∈ w.2, m.data.id = "tx" := by
  induction n with
  | zero =>
    have hw : Cut (stand 1) ⟨some 3000, [heardSig "tx" 3000], none⟩ [] := by
      have hz : stand 1 = stand 0 ++ [sig "tx" 3000] := stand_succ 0
      have h0 := silent_cut [exLevel, upLevel] twoCfg.cs (stand 0) (stand_silent _ _)
      rw [hz]
      constructor
      · rw [windows_snoc, h0]
        unfold sig
        rw [take_heard _ (sig_admitted (.inl rfl)), two_span]
        simp [Windows.hear, heardSig]
      · rw [closedWindows_snoc, if_neg, silent_windows _ _ _ (stand_silent _ _)]
        · rfl
        · rintro ⟨-, hcl⟩
          rw [two_span, h0] at hcl
          simp at hcl
    have h1 := cut_next hw (.inl rfl) (t := 5000) (id := "tx") (by norm_num)
    refine ⟨[heardSig "tx" 3000, heardSig "tx" 5000], [], ?_, by simp, ?_⟩
    · have hz : stand 2 = stand 1 ++ [sig "tx" 5000] := stand_succ 1
      rw [show 0 + 2 = 2 from rfl, hz]
      simpa using h1
    · intro w hw m hm
      simp only [List.nil_append, List.mem_singleton] at hw
      subst hw
      simp only [List.mem_cons, List.not_mem_nil, or_false] at hm
      rcases hm with rfl | rfl <;> rfl
  | succ n ih =>
    obtain ⟨win, ws, h1, h2, h3⟩ := ih
    have h4 := cut_next h1 (.inl rfl) (t := 5000 + 2000 * ((n + 1 : ℕ) : Int)) (id := "tx") (by push_cast; omega)
    refine ⟨[heardSig "tx" (5000 + 2000 * ((n + 1 : ℕ) : Int))], ws ++ [(5000 + 2000 * (n : Int), win)], ?_, by simp, ?_⟩
    · have hz : stand (n + 1 + 2) = stand (n + 2) ++ [sig "tx" (5000 + 2000 * ((n + 1 : ℕ) : Int))] := by
        have := stand_succ (n + 2)
        rw [this]
        rw [show (3000 : Int) + 2000 * ((n + 2 : ℕ) : Int) = 5000 + 2000 * ((n + 1 : ℕ) : Int) by push_cast; ring]
      rw [hz]
      simpa only [List.nil_append] using h4
    · intro w hw
      rcases List.mem_append.mp hw with hw | hw
      · exact h3 w hw
      · rw [List.mem_singleton] at hw
        subst hw
        intro m hm
        rw [List.mem_singleton] at hm
        subst hm
        rfl

/-- The same history without the barometer: from the second signal on the answer names floor A. -/
theorem C127_found_without (g : Garbage) (n : ℕ) :
    ∃ s outs s' out dbg, navigateAll twoCfg (init twoCfg g) [stand (n + 1)] = .ok (s, outs) ∧
      navigate twoCfg s [sig "tx" (5000 + 2000 * n)] = .ok (s', [(out, dbg)]) ∧ out.status = .OK ∧ out.posLevel = "A" := by
  obtain ⟨s, outs, h1, -⟩ := C79_total twoClient g [stand (n + 1)]
  have htk : taken [stand (n + 1)] = stand (n + 1) := by simp [taken, records_ordered _ (stand_times (n + 1)).1]
  have hsnoc : taken [stand (n + 1)] ++ [sig "tx" (5000 + 2000 * n)] = stand (n + 2) := by
    rw [htk, stand_succ (n + 1), show (3000 : Int) + 2000 * ((n + 1 : ℕ) : Int) = 5000 + 2000 * (n : Int) by push_cast; ring]
  obtain ⟨wn, ws, hcut, hne, htx⟩ := stand_cut n
  have hdead : ⌊1000 * twoCfg.cs.deadReckoningTime⌋ = 5000 := by
    have : (1000 : ℝ) * twoCfg.cs.deadReckoningTime = ((5000 : Int) : ℝ) := by
      simp [twoCfg, plainSettings]; norm_num
    rw [this, Int.floor_intCast]
  obtain ⟨s', out, dbg, lv, t0, win, b, t, h2, ⟨h3, -⟩, h6, h7, h8, -, h9, -⟩ := C118_floors twoClient plain_settings g
    [stand (n + 1)] h1 (sig "tx" (5000 + 2000 * n)) (by rw [hsnoc]; exact (stand_times (n + 2)).2)
    ⟨stand (n + 1), sig "tx" (5000 + 2000 * n), [], by rw [htk], ⟨_, rfl, sig_admitted (.inl rfl)⟩, by simp,
      (by change 5000 + 2000 * (n : Int) < 5000 + 2000 * (n : Int) + 1000 * 35; omega)⟩
    (by rw [hsnoc, hcut.2]; simp)
  rw [hsnoc, hcut.2] at h6
  simp only [List.mem_cons, List.not_mem_nil, or_false] at h3
  rcases h3 with rfl | rfl
  · have hon : onFloor exLevel wn ≠ [] := by
      obtain ⟨m, l, rfl⟩ := List.exists_cons_of_ne_nil hne
      have := htx (5000 + 2000 * (n : Int), m :: l) (List.mem_append_right _ (List.mem_singleton.mpr rfl)) m (List.mem_cons_self ..)
      simp [onFloor, this, low_tx]
    have ht0 := (lastHeard_unique h6 (lastHeard_now _ _ hon)).1
    rw [low_tx] at h8
    split_ifs at h8
    cases h8
    obtain ⟨a1, a2, -⟩ := h9 ⟨by simp [Estim.Box.Covers, exLevel, bareLevel, Level.addTransmitters, exTx], by
      rw [ht0, hdead]
      simp only [sig]
      omega⟩
    exact ⟨s, outs, s', out, dbg, h1, h2, a1, a2⟩
  · exfalso
    obtain ⟨p, q, e, hx, -⟩ := h6
    apply hx
    unfold onFloor
    rw [List.filter_eq_nil_iff]
    intro m hm
    rw [htx (t0, win) (by rw [e]; simp) m hm, up_tx]
    simp

end Verif.Pressure
