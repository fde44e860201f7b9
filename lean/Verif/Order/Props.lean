import Verif.Order.Lemmas
import Verif.Floors.Props

/-!
# Property theorems for C141: the order of the map
-/

namespace Verif.Order

open Verif.Levels Verif.Nav Verif.Floors
open Verif.Knn (Result)

/-- **C141, transmitters.** The order in which the transmitters of a floor are listed does not matter: the map is the same. -/
theorem C141_transmitters (bg : BoostGeometry) (col : LevelCollector) {g g' : GeoLevel}
    (h : g' = { g with transmitters := g'.transmitters }) (hp : g'.transmitters.Perm g.transmitters)
    (hn : (g.transmitters.map Transmitter.id).Nodup) : addGeoLevel bg col g' = addGeoLevel bg col g := by
  obtain ⟨id, tx, rp, geo, graph, alt⟩ := g
  obtain ⟨id', tx', rp', geo', graph', alt'⟩ := g'
  simp only [GeoLevel.mk.injEq, true_and] at h
  obtain ⟨rfl, rfl, rfl, rfl, rfl⟩ := h
  dsimp only at hp hn
  have hb : getBinding ⟨id', tx', rp', geo', graph', alt'⟩ = getBinding ⟨id', tx, rp', geo', graph', alt'⟩ := rfl
  unfold addGeoLevel
  dsimp only
  rw [hb]
  generalize getBinding ⟨id', tx, rp', geo', graph', alt'⟩ = bind
  split
  · rfl
  · rename_i gr _
    have hl : (localTransmitters bind tx' alt').Perm (localTransmitters bind tx alt') := hp.map _
    have hid : ((localTransmitters bind tx alt').map Transmitter.id).Nodup := by
      have : (localTransmitters bind tx alt').map Transmitter.id = tx.map Transmitter.id := by
        unfold localTransmitters
        rw [List.map_map]
        rfl
      rw [this]
      exact hn
    have he := insertAll_perm hl hid [] (by simp [StdMap.Sorted])
    unfold Level.addTransmitters
    dsimp only
    rw [he]

/-- One measurement. -/
theorem step_perm {ls ls' : List Level} (h : ls'.Perm ls) {c c' : Cfg} (hc : Client ls c) (hc' : Client ls' c') (henv : c'.env = c.env)
    (hcs : c'.cs = c.cs) (hin : c'.indoor = c.indoor) (hp : Framed c.cs) (hz : ByZones c.cs) (hx : OneFloorEach ls) {g : Garbage}
    {ms : List Measurement} {s : State} (ht : Traced ls c g ms s) (hb : Buffered c.cs (windows ls c.cs ms) s.pre.buffer)
    (hpend : ∀ e ∈ (windows ls c.cs ms).pending, Radio.Admissible ls c.cs e.data) {m : Measurement} (hts : 0 < m.ts)
    (hfix : FixOnOneFloor ls (lastSensor g.sensor (ms ++ [m])).data) (hties : NoTies ls (closedWindows ls c.cs (ms ++ [m]))) :
    step c' s m = step c s m := by
  have hn := hc.map.nodup
  have hpre : Radio.updateMeasurements c'.pre s.pre m = Radio.updateMeasurements c.pre s.pre m := by
    rw [hc'.parts.pre, hc.parts.pre, hcs, update_perm h hn hx]
  have hext : ∀ st t, Radio.extractRadioMeasurements c'.env.radioSorts c'.pre st t =
      Radio.extractRadioMeasurements c.env.radioSorts c.pre st t := by
    intro st t
    rw [hc'.parts.pre, hc.parts.pre, hcs, henv, extract_perm h hn hx]
  have hsens : (Radio.updateMeasurements c.pre s.pre m).sensor = lastSensor g.sensor (ms ++ [m]) := by
    rw [update_sensor, lastSensor_snoc, ht.sensor]
  have hnod : ls.Nodup := List.Nodup.of_map _ hn
  have hdet : ∀ t radio, (Radio.extractRadioMeasurements c.env.radioSorts c.pre (Radio.updateMeasurements c.pre s.pre m) t).1 = some radio →
      detectLevel c' radio = detectLevel c radio := by
    intro t radio hr
    obtain ⟨-, hcase⟩ := framed_radio hc hp hb hts hr
    rcases hcase with ⟨hnil, -⟩ | ⟨hclose, d, win, hd, had, hwin, hcl, -, hho, -⟩
    · rw [hnil, detect_nothing hc, detect_nothing hc']
    · have hadm : ∀ e ∈ win, Radio.Admissible ls c.cs e.data := by
        intro e he
        rw [hwin] at he
        rcases List.mem_append.mp he with he | he
        · exact hpend e he
        · rw [List.mem_singleton] at he
          rw [he]; exact had
      have hne : win ≠ [] := by rw [hwin]; simp
      have hcloses : Closes ls c.cs ms m := ⟨⟨d, hd, had⟩, hclose⟩
      have hmem : (m.ts, win) ∈ closedWindows ls c.cs (ms ++ [m]) := by
        rw [closedWindows_snoc, if_pos hcloses, windows_snoc, hcl]
        simp
      obtain ⟨f, hf, e1⟩ := handed_detected hc hz hho hne hadm
      obtain ⟨f', hf', e2⟩ := handed_detected hc' (by rw [hcs]; exact hz) hho hne
        (fun e he => by rw [hcs]; exact (admissible_perm h hx c.cs e.data).mpr (hadm e he))
      have := floorOf_unique (floorOf_perm h hnod (hties _ hmem) hf) hf'
      rw [e1, e2, this]
  have hsense : sense c' s m = sense c s m := by
    unfold sense
    dsimp only
    rw [hpre, hc'.parts.fusion, hc.parts.fusion, hcs]
    congr 1
    funext f
    rw [hext]
    cases hr : (Radio.extractRadioMeasurements c.env.radioSorts c.pre (Radio.updateMeasurements c.pre s.pre m) f.2.lastMotionTs).1 with
    | none => rfl
    | some radio =>
      simp only [orThrow, andThen]
      rw [hdet _ radio hr]
      cases detectLevel c radio with
      | none => rfl
      | some d =>
        dsimp only
        rw [hc'.parts.levels, hc.parts.levels, outdoor_perm h hp.outside _ _ _ _ _ (by rw [hsens]; exact hfix)]
  have hlocate : ∀ x, locate c' s x = locate c s x := by
    intro x
    have hto : timedOutLevel c' x = timedOutLevel c x := by
      unfold timedOutLevel
      rw [hc'.parts.noSignal, hc'.parts.noAction, hc.parts.noSignal, hc.parts.noAction, hcs]
    have hli : locateIndoor c' s x = locateIndoor c s x := by
      funext lv
      have hi : ∀ p ts r, indoorPosition c' p lv ts r = indoorPosition c p lv ts r := by
        intro p ts r
        unfold indoorPosition
        rw [hin]
      have hfa : ∀ a v f, finalAzimuth c' a v f = finalAzimuth c a v f := by
        intro a v f
        unfold finalAzimuth
        rw [hcs]
      unfold locateIndoor
      simp only [hi, hfa, hcs, henv]
    unfold locate
    dsimp only
    rw [hto, hli, hc'.parts.levels, hc.parts.levels, hasLevel_perm h, level_perm h hn]
  have hreport : ∀ x l, report c' x l = report c x l := by
    intro x l
    have ha : ∀ lv r, altitudeOf c' lv r = altitudeOf c lv r := by
      intro lv r
      unfold altitudeOf
      rw [hcs, henv]
    unfold report
    simp only [ha, hc'.parts.levels, hc.parts.levels, level_perm h hn]
  unfold step
  rw [hsense]
  congr 1
  funext x
  rw [hlocate]
  congr 1
  funext l
  rw [hreport]

/-- What the buffer holds after any measurements. -/
theorem buffered_runs {ls : List Level} {c : Cfg} (hc : Client ls c) (hp : Framed c.cs) (g : Garbage) (ms : List Measurement)
    (hts : ∀ m ∈ ms, 0 < m.ts) {s : State} {outs : List (Output × DebugState)} (h : runs c (init c g) ms = .ok (s, outs)) :
    Buffered c.cs (windows ls c.cs ms) s.pre.buffer ∧ ∀ e ∈ (windows ls c.cs ms).pending, Radio.Admissible ls c.cs e.data := by
  induction ms using List.reverseRecOn generalizing s outs with
  | nil =>
    cases h
    refine ⟨⟨rfl, fun _ => ⟨rfl, rfl⟩, (fun t h => by cases h), framed_span hp⟩, fun e he => by cases he⟩
  | append_singleton ms m ih =>
    obtain ⟨s1, outs1, r, h1, h2, -⟩ := runs_snoc h
    obtain ⟨hb, hpend⟩ := ih (fun e he => hts e (by simp [he])) h1
    have ht := traced_runs hc g ms h1
    obtain ⟨-, x, l, hst, -⟩ := traced_step hc ht h2
    obtain ⟨-, e1, e2, -⟩ := sense_parts hst.sense
    obtain ⟨f1, -⟩ := locate_frame hst.locate
    obtain ⟨hb', hcase⟩ := framed_radio hc hp hb (hts m (by simp)) e1
    rw [← windows_snoc, ← e2, ← f1, ← hst.state] at hb'
    rw [← windows_snoc] at hcase
    refine ⟨hb', ?_⟩
    rcases hcase with ⟨-, -, -, hpe, hpn⟩ | ⟨-, d, win, -, -, -, -, hpe, -, -⟩
    · by_cases hh : Heard ls c.cs m
      · rw [hpe hh]
        obtain ⟨dd, hd, ha⟩ := hh
        intro e hm
        rcases List.mem_append.mp hm with hm | hm
        · exact hpend e hm
        · rw [List.mem_singleton] at hm
          rw [hm, hd]
          exact ha
      · rw [hpn hh]; exact hpend
    · rw [hpe]
      intro e he
      cases he

/-- A client of the map in another order. -/
theorem client_perm {ls ls' : List Level} (h : ls'.Perm ls) {c : Cfg} (hc : Client ls c) (hz : c.cs.useAlgorithm ≠ .KNN)
    {sets : List (String × Estim.LevelSettings)} (hbuilt : mkCfg c.env (collect ls) c.cs sets = some c) :
    ∃ c', mkCfg c.env (collect ls') c.cs sets = some c' ∧ Client ls' c' ∧ c'.env = c.env ∧ c'.cs = c.cs ∧ c'.indoor = c.indoor := by
  have hpos : ∀ col, createPositionEstimator c.env col c.cs sets = (Estim.zoneParams sets col).map (fun ab => .zone ab.1 ab.2) := by
    intro col
    unfold createPositionEstimator
    rw [if_neg hz]
  unfold mkCfg at hbuilt ⊢
  rw [hpos] at hbuilt ⊢
  rw [params_perm h]
  cases hp : Estim.zoneParams sets (collect ls) with
  | none => rw [hp] at hbuilt; simp at hbuilt
  | some ab =>
    rw [hp] at hbuilt
    simp only [Option.map_some, Option.some.injEq] at hbuilt ⊢
    refine ⟨_, rfl, ?_, rfl, rfl, ?_⟩
    · have hm : GoodMap ls' := by
        refine ⟨((h.map Level.id).nodup_iff).mpr hc.map.nodup, fun l hl => hc.map.named l (h.mem_iff.mp hl),
          fun l hl => hc.map.radiomap l (h.mem_iff.mp hl), fun l hl => hc.map.graph l (h.mem_iff.mp hl)⟩
      refine ⟨hm, hc.settings, hc.sort, hc.radioSorts, sets, ?_⟩
      unfold mkCfg createPositionEstimator
      dsimp only
      rw [if_neg hz, params_perm h, hp]
      rfl
    · dsimp only
      rw [← hbuilt]

/-- **C141, floors.** The order in which the floors were added to the map does not matter, unless two floors are heard equally
strong in a window: two clients with zones and the same settings, whose maps have the same floors in different orders, answer every
batch of measurements alike. A satellite fix must not lie on two floors. -/
theorem C141_floors {ls ls' : List Level} (hperm : ls'.Perm ls) {c : Cfg} (hc : Client ls c)
    {sets : List (String × Estim.LevelSettings)} (hbuilt : mkCfg c.env (collect ls) c.cs sets = some c) (hp : Framed c.cs)
    (hz : ByZones c.cs) (hx : OneFloorEach ls) :
    ∃ c', mkCfg c.env (collect ls') c.cs sets = some c' ∧
      ∀ (g : Garbage) (batches : List (List Measurement)), (∀ m ∈ taken batches, 0 < m.ts) →
        FixOnOneFloor ls g.sensor.data → (∀ m ∈ taken batches, ∀ v, m.data = .sensor v → FixOnOneFloor ls v) →
        NoTies ls (closedWindows ls c.cs (taken batches)) →
        navigateAll c' (init c' g) batches = navigateAll c (init c g) batches := by
  obtain ⟨c', hb', hc', henv, hcs, hin⟩ := client_perm hperm hc hz.algorithm hbuilt
  refine ⟨c', hb', ?_⟩
  intro g batches hts hg hs hties
  rw [navigateAll_eq, navigateAll_eq]
  generalize taken batches = ms at hts hs hties
  have hinit : init c' g = init c g := by
    unfold init
    rw [hcs]
  rw [hinit]
  induction ms using List.reverseRecOn with
  | nil => rfl
  | append_singleton ms m ih =>
    have hsub : ∀ w ∈ closedWindows ls c.cs ms, w ∈ closedWindows ls c.cs (ms ++ [m]) := by
      intro w hw
      rw [closedWindows_snoc]
      simp [hw]
    have ih := ih (fun e he => hts e (by simp [he])) (fun e he => hs e (by simp [he])) (fun w hw => hties w (hsub w hw))
    rw [runs_append, runs_append, ih]
    cases hr : runs c (init c g) ms with
    | throws => rfl
    | undefined => rfl
    | ok r =>
      obtain ⟨s, outs⟩ := r
      obtain ⟨hbuf, hpend⟩ := buffered_runs hc hp g ms (fun e he => hts e (by simp [he])) hr
      have hfix : FixOnOneFloor ls (lastSensor g.sensor (ms ++ [m])).data := by
        have key : ∀ l : List Measurement, (∀ e ∈ l, ∀ v, e.data = .sensor v → FixOnOneFloor ls v) →
            FixOnOneFloor ls (lastSensor g.sensor l).data := by
          intro l
          induction l using List.reverseRecOn with
          | nil => intro _; exact hg
          | append_singleton l e ihl =>
            intro hl
            rw [lastSensor_snoc]
            cases hd : e.data with
            | sensor v => exact hl e (by simp) v hd
            | radio v => exact ihl (fun e' he' => hl e' (by simp [he']))
            | nmea v => exact ihl (fun e' he' => hl e' (by simp [he']))
        exact key _ hs
      have hstep := step_perm hperm hc hc' henv hcs hin hp hz hx (traced_runs hc g ms hr) hbuf hpend (hts m (by simp)) hfix hties
      simp only [andThen, runs, hstep]

/-! ## A tie -/

theorem closed_perm {ls ls' : List Level} (h : ls'.Perm ls) (hx : OneFloorEach ls) (cs : CommonSettings) (ms : List Measurement) :
    closedWindows ls' cs ms = closedWindows ls cs ms := by
  induction ms using List.reverseRecOn with
  | nil => rw [closedWindows_nil, closedWindows_nil]
  | append_singleton ms m ih =>
    have hiff : Closes ls' cs ms m ↔ Closes ls cs ms m := by
      unfold Closes Heard
      simp only [admissible_perm h hx, windows_perm h hx]
    rw [closedWindows_snoc, closedWindows_snoc, ih, windows_perm h hx]
    by_cases hcl : Closes ls cs ms m
    · rw [if_pos hcl, if_pos (hiff.mpr hcl)]
    · rw [if_neg hcl, if_neg (fun k => hcl (hiff.mp k))]

theorem two_one : OneFloorEach [exLevel, upLevel] := by
  intro a ha b hb id h1 h2
  simp only [List.mem_cons, List.not_mem_nil, or_false] at ha hb
  rcases ha with rfl | rfl <;> rcases hb with rfl | rfl
  · rfl
  · rw [low_tx] at h1
    rw [up_tx] at h2
    split_ifs at h1 h2 with e1 e2 <;> simp_all
  · rw [up_tx] at h1
    rw [low_tx] at h2
    split_ifs at h1 h2 with e1 e2 <;> simp_all
  · rfl

/-- The window of the example: one signal of either floor, equally strong. -/
noncomputable def tied : List RadioMeasurement := [heardSig "tx" 1000, heardSig "ty" 3000]

theorem tied_low : onFloor exLevel tied = [heardSig "tx" 1000] := by
  simp [onFloor, tied, heardSig, low_tx]

theorem tied_up : onFloor upLevel tied = [heardSig "ty" 3000] := by
  simp [onFloor, tied, heardSig, up_tx]

theorem tied_strength : strength tied exLevel = strength tied upLevel := by
  unfold strength
  rw [tied_low, tied_up]
  simp [idsOf, meanRssi, tied, heardSig, Radio.ofTransmitter]

/-- The floor of the window is the first of the map. -/
theorem tied_floor {a b d : Level} (h : (a = exLevel ∧ b = upLevel) ∨ (a = upLevel ∧ b = exLevel)) (hf : FloorOf [a, b] tied d) : d = a := by
  have hs : strength tied a = strength tied b := by
    rcases h with ⟨rfl, rfl⟩ | ⟨rfl, rfl⟩
    · exact tied_strength
    · exact tied_strength.symm
  have hna : onFloor a tied ≠ [] := by
    rcases h with ⟨rfl, rfl⟩ | ⟨rfl, rfl⟩
    · rw [tied_low]; simp
    · rw [tied_up]; simp
  obtain ⟨p, q, e, -, hlt, -⟩ := hf
  match p, e, hlt with
  | [], e, _ => simp at e; exact e.1.symm
  | [x], e, hlt =>
    simp only [List.cons_append, List.nil_append, List.cons.injEq] at e
    obtain ⟨rfl, rfl, -⟩ := e
    have := hlt a (by simp) hna
    rw [hs] at this
    exact absurd this (lt_irrefl _)
  | x :: y :: p, e, _ => simp at e

/-- The answer names the first floor of the map. -/
theorem tied_answer {a b : Level} (h : (a = exLevel ∧ b = upLevel) ∨ (a = upLevel ∧ b = exLevel)) {c : Cfg} (hc : Client [a, b] c)
    (hcs : c.cs = twoCfg.cs) (g : Garbage) :
    ∃ s outs s' out dbg, navigateAll c (init c g) [[sig "tx" 1000]] = .ok (s, outs) ∧
      navigate c s [sig "ty" 3000] = .ok (s', [(out, dbg)]) ∧ out.status = .OK ∧ out.posLevel = a.id := by
  have hperm : [a, b].Perm [exLevel, upLevel] := by
    rcases h with ⟨rfl, rfl⟩ | ⟨rfl, rfl⟩
    · exact List.Perm.refl _
    · exact List.Perm.swap _ _ _
  have hx : OneFloorEach [exLevel, upLevel] := two_one
  have hcut := cut_next (cut_first (.inl rfl) 1000) (.inr rfl) (id := "ty") (t := 3000) (by norm_num)
  have htk : taken [[sig "tx" 1000]] = [sig "tx" 1000] := by
    simp [taken, records_ordered _ (show Ordered [sig "tx" 1000] by simp [Ordered])]
  have hclosed : closedWindows [a, b] c.cs ([sig "tx" 1000] ++ [sig "ty" 3000]) = [(3000, tied)] := by
    rw [hcs, closed_perm hperm hx, hcut.2]
    rfl
  obtain ⟨s, outs, h1, -⟩ := C79_total hc g [[sig "tx" 1000]]
  have hdead : ⌊1000 * c.cs.deadReckoningTime⌋ = 5000 := by
    have : (1000 : ℝ) * c.cs.deadReckoningTime = ((5000 : Int) : ℝ) := by
      rw [hcs]; simp [twoCfg, plainSettings]; norm_num
    rw [this, Int.floor_intCast]
  obtain ⟨s', out, dbg, lv, t0, win, b', t, h2, ⟨h3, ds, h4, h5⟩, h6, h7, h8, -, h9, -⟩ := C118_floors hc (by rw [hcs]; exact plain_settings) g
    [[sig "tx" 1000]] h1 (sig "ty" 3000)
    (by rw [htk]; simp [sig])
    ⟨[sig "tx" 1000], sig "ty" 3000, [], by rw [htk], ⟨_, rfl, by
      rw [hcs]; exact (admissible_perm hperm hx _ _).mpr (sig_admitted (.inr rfl))⟩, by simp,
      (by rw [hcs]; change (3000 : Int) < 3000 + 1000 * 35; norm_num)⟩
    (by rw [htk, hclosed]; simp)
  rw [htk, hclosed] at h4 h6
  have hlv : lv = a := by
    cases h4 with
    | cons k1 k2 =>
      cases k2
      have hid : lv.id = a.id := by
        rw [tied_floor h k1] at h5
        simpa [votes, Votes.see] using h5.symm
      exact List.inj_on_of_nodup_map hc.map.nodup h3 (by simp) hid
  subst hlv
  have ht0 : t0 = 3000 := by
    obtain ⟨p, q, e, -⟩ := h6
    match p, e with
    | [], e => simp at e; exact e.1.1.symm
    | x :: p, e => simp at e
  have hbox : Estim.Box.Covers lv.geometry.boundingBox ⟨t.point.x, t.point.y⟩ := by
    rcases h with ⟨rfl, rfl⟩ | ⟨rfl, rfl⟩
    · rw [low_tx] at h8
      split_ifs at h8
      cases h8
      simp [Estim.Box.Covers, exLevel, bareLevel, Level.addTransmitters, exTx]
    · rw [up_tx] at h8
      split_ifs at h8
      cases h8
      simp [Estim.Box.Covers, upLevel, bareLevel, Level.addTransmitters, upTx]
  obtain ⟨a1, a2, -⟩ := h9 ⟨hbox, by rw [ht0, hdead]; change (3000 : Int) - 3000 < 5000; norm_num⟩
  exact ⟨s, outs, s', out, dbg, h1, h2, a1, a2⟩

/-- **C141, a tie.** The order matters if two floors are heard equally strong: of two clients with the same settings, whose maps
have the same two floors in different orders, one names floor A and the other floor B in answer to the same signals. -/
theorem C141_tie (g : Garbage) :
    ∃ c c', Client [exLevel, upLevel] c ∧ Client [upLevel, exLevel] c' ∧ c'.cs = c.cs ∧
      (∃ s outs s' out dbg, navigateAll c (init c g) [[sig "tx" 1000]] = .ok (s, outs) ∧
        navigate c s [sig "ty" 3000] = .ok (s', [(out, dbg)]) ∧ out.status = .OK ∧ out.posLevel = "A") ∧
      (∃ s outs s' out dbg, navigateAll c' (init c' g) [[sig "tx" 1000]] = .ok (s, outs) ∧
        navigate c' s [sig "ty" 3000] = .ok (s', [(out, dbg)]) ∧ out.status = .OK ∧ out.posLevel = "B") := by
  obtain ⟨sets, hb⟩ := twoClient.built
  obtain ⟨c', -, hc', -, hcs, -⟩ := client_perm (List.Perm.swap upLevel exLevel []).symm twoClient (by simp [twoCfg, plainSettings]) hb
  exact ⟨twoCfg, c', twoClient, hc', hcs, tied_answer (.inl ⟨rfl, rfl⟩) twoClient rfl g, tied_answer (.inr ⟨rfl, rfl⟩) hc' hcs g⟩

/-- **C141** is about possible maps and histories: the two floors of C118, for every number of signals of that example. -/
example (g : Garbage) (hg : g.sensor.data.type ≠ .LOCATION) (n : ℕ) :
    ∃ c', Client [upLevel, exLevel] c' ∧ navigateAll c' (init c' g) [climb n] = navigateAll twoCfg (init twoCfg g) [climb n] := by
  obtain ⟨sets, hb⟩ := twoClient.built
  have hz : ByZones twoCfg.cs := plain_settings.toByZones
  have hp : Framed twoCfg.cs := plain_settings.toPlain.toDirect.toWindowed.framed
  have htk : taken [climb n] = climb n := by simp [taken, records_ordered _ (climb_times n).1]
  have hperm : [upLevel, exLevel].Perm [exLevel, upLevel] := List.Perm.swap _ _ _
  obtain ⟨c', h1, h2⟩ := C141_floors hperm twoClient hb hp hz two_one
  obtain ⟨c2, k1, k2, -⟩ := client_perm hperm twoClient hz.algorithm hb
  rw [h1] at k1
  cases k1
  refine ⟨c', k2, h2 g [climb n] ?_ (fun h => absurd h hg) ?_ ?_⟩
  · rw [htk]; exact fun e he => ((climb_times n).2 e he).1
  · rw [htk]
    intro m hm v hv
    unfold climb at hm
    simp only [List.cons_append, List.nil_append, List.mem_cons, List.mem_map] at hm
    rcases hm with rfl | rfl | ⟨k, -, rfl⟩ <;> cases hv
  · rw [htk]
    obtain ⟨cl, hcut⟩ := climb_cut n
    rw [hcut.2]
    have hid : ∀ w ∈ climbed n, (∀ m ∈ w.2, m.data.id = "tx") ∨ ∀ m ∈ w.2, m.data.id = "ty" := by
      intro w hw
      unfold climbed at hw
      rcases List.mem_cons.mp hw with rfl | hw
      · left; intro m hm; simp at hm; rcases hm with rfl | rfl <;> rfl
      · obtain ⟨k, -, rfl⟩ := List.mem_map.mp hw
        right; intro m hm; simp at hm; rw [hm]; rfl
    have no : ∀ w ∈ climbed n, onFloor exLevel w.2 = [] ∨ onFloor upLevel w.2 = [] := by
      intro w hw
      rcases hid w hw with hi | hi
      · right
        unfold onFloor
        rw [List.filter_eq_nil_iff]
        intro m hm
        rw [hi m hm, up_tx]; simp
      · left
        unfold onFloor
        rw [List.filter_eq_nil_iff]
        intro m hm
        rw [hi m hm, low_tx]; simp
    intro w hw a ha b hb ha' hb' _
    simp only [List.mem_cons, List.not_mem_nil, or_false] at ha hb
    rcases no w hw with e | e <;> rcases ha with rfl | rfl <;> rcases hb with rfl | rfl <;> first | rfl | exact absurd e ha' | exact absurd e hb'

end Verif.Order
