import Verif.Nav.Trace
import Verif.Geo.Props

/-!
# Property theorems for the navigation client: C63 to C67, C79, C80, C81

Histories are sequences of calls of `navigate` on a new client, whose memory starts with arbitrary contents `g`.
-/

namespace Verif.Nav

open Verif.Levels
open Verif.Knn (Result)

/-- The state, and what is known about it, after a history. -/
theorem history {ls : List Level} {c : Cfg} (hc : Client ls c) (g : Garbage) (batches : List (List Measurement)) :
    ∃ s outs, navigateAll c (init c g) batches = .ok (s, outs) ∧ Traced ls c g (taken batches) s := by
  obtain ⟨s, outs, h, -⟩ := runs_defined hc (inv_init hc g) (taken batches)
  exact ⟨s, outs, by rw [navigateAll_eq]; exact h, traced_runs hc g _ h⟩

theorem history_traced {ls : List Level} {c : Cfg} (hc : Client ls c) {g : Garbage} {batches : List (List Measurement)}
    {s : State} {outs : List (Output × DebugState)} (h : navigateAll c (init c g) batches = .ok (s, outs)) :
    Traced ls c g (taken batches) s := by
  rw [navigateAll_eq] at h
  exact traced_runs hc g _ h

theorem one_parts {ls : List Level} {c : Cfg} (hc : Client ls c) {s : State} (h : Inv ls c s) (m : Measurement) :
    ∃ s' out dbg x l, navigate c s [m] = .ok (s', [(out, dbg)]) ∧ Stepped ls c s m s' out x l ∧ dbg = debugState x s' := by
  obtain ⟨x, l, out, h1, h2, h3, h4, h5, h6, h7⟩ := step_defined hc h m
  refine ⟨l.state, out, debugState x l.state, x, l, ?_, ⟨h1, h2, h3, rfl, h5, h6, h7⟩, rfl⟩
  rw [navigate_one, h4]
  rfl

/-! ## C79 -/

/-- **C79.** Whatever memory the client starts with, whatever the batches: `navigate` never throws and has no
undefined behaviour. -/
theorem C79_total {ls : List Level} {c : Cfg} (hc : Client ls c) (g : Garbage) (batches : List (List Measurement)) :
    ∃ s outs, navigateAll c (init c g) batches = .ok (s, outs) ∧ outs.length = (taken batches).length := by
  obtain ⟨s, outs, h, -⟩ := history hc g batches
  refine ⟨s, outs, h, ?_⟩
  rw [navigateAll_eq] at h
  exact runs_length c _ _ _ outs h

/-! ## C63 -/

/-- **C63.** Every output of every history either has status OK and is complete, or has one of three error
statuses and no place; and it has status OK exactly if the client holds a position afterwards. -/
theorem C63_outputs {ls : List Level} {c : Cfg} (hc : Client ls c) (g : Garbage) (batches : List (List Measurement))
    {s : State} {outs : List (Output × DebugState)} (h : navigateAll c (init c g) batches = .ok (s, outs)) :
    (∀ o ∈ outs, (o.1.status = .OK ∧ Complete ls o.1) ∨
      ((o.1.status = .NAVIGATION_ERROR ∨ o.1.status = .NO_SOLUTION ∨ o.1.status = .NO_LEVEL) ∧ Blank o.1)) ∧
    (∀ o, outs.getLast? = some o → (o.1.status = .OK ↔ s.position.isEmpty = false)) := by
  rw [navigateAll_eq] at h
  constructor
  · generalize taken batches = ms at h
    induction ms using List.reverseRecOn generalizing s outs with
    | nil => cases h; intro o ho; cases ho
    | append_singleton ms m ih =>
      obtain ⟨s1, outs1, r, h1, h2, h3⟩ := runs_snoc h
      intro o ho
      rw [h3] at ho
      rcases List.mem_append.mp ho with ho | ho
      · exact ih h1 o ho
      · rw [List.mem_singleton] at ho
        subst ho
        obtain ⟨x, l, hst, -⟩ := step_parts hc (traced_runs hc g _ h1).inv h2
        obtain ⟨hsh, hor, herr⟩ := stepped_shows hc hst
        rcases hsh with ⟨he, hne, hb⟩ | ⟨he, hok, lv, hlv, hid, e1, e2, e3, e4, e5⟩
        · right
          refine ⟨?_, hb⟩
          have hs := herr he
          rw [hs]
          rcases hst.usual with e | e | e | e <;> rw [e] <;> simp
        · left
          refine ⟨hok, lv, hlv, s.position.toXY, s.position.deviationM, _, s.position.provider, by rw [e1, hid], ?_, e4,
            hor hok, (Fusion.C54_range _).1, (Fusion.C54_range _).2.1, e5, ?_⟩
          · rw [e2, e3]
          · exact (hst.inv.position.level he).2
  · intro o ho
    rcases last_shows hc (inv_init hc g) _ h ho with ⟨h1, h2, -⟩ | ⟨h1, h2, -⟩
    · exact ⟨fun h => absurd h h2, fun h => by rw [h1] at h; cases h⟩
    · exact ⟨fun _ => h1, fun _ => h2⟩

/-! ## C64, C65 -/

/-- In silence: the indoor estimator and the post-processor are left alone. -/
theorem silent_step {ls : List Level} {c : Cfg} (hc : Client ls c) {g : Garbage} {ms : List Measurement} {s : State}
    (h : Traced ls c g ms s) {m : Measurement} (hsil : Silent ls c.cs ms m) :
    ∃ s' out dbg x l, navigate c s [m] = .ok (s', [(out, dbg)]) ∧ Stepped ls c s m s' out x l ∧ dbg = debugState x s' ∧
      l.azimuth = x.info.azimuth ∧ s'.post = s.post ∧ s'.indoorPos = s.indoorPos ∧
      ((x.outdoorPos.isEmpty = false ∧ s'.position = x.outdoorPos ∧ l.status = .OK) ∨
       (x.outdoorPos.isEmpty = true ∧ s'.position = s.position ∧ l.status = .NO_LEVEL)) := by
  obtain ⟨s', out, dbg, x, l, h1, hst, hd⟩ := one_parts hc h.inv m
  obtain ⟨a1, a2, a3, -, a5⟩ := locate_nowhere hc hst.locate (silent_level hc h hsil hst.sense)
  refine ⟨s', out, dbg, x, l, h1, hst, hd, a1, ?_, ?_, ?_⟩ <;> rw [hst.state]
  · exact a2
  · exact a3
  · exact a5

/-- A held position was reported before. -/
theorem last_output {ls : List Level} {c : Cfg} (_hc : Client ls c) {g : Garbage} {batches : List (List Measurement)}
    {s : State} {outs : List (Output × DebugState)} (h : navigateAll c (init c g) batches = .ok (s, outs))
    (he : s.position.isEmpty = false) : ∃ o, outs.getLast? = some o := by
  cases ho : outs.getLast? with
  | none =>
    exfalso
    have hnil : outs = [] := List.getLast?_eq_none_iff.mp ho
    rw [navigateAll_eq] at h
    have := runs_length c _ _ _ _ h
    rw [hnil] at this
    have hm : taken batches = [] := List.length_eq_zero_iff.mp this.symm
    rw [hm] at h
    cases h
    cases he
  | some o => exact ⟨o, rfl⟩

/-- **C65.** If at the time of a measurement no radio signal was admitted for the no-signal threshold, the state
of the indoor estimator and of the post-processor (and so the indoor position shown by `getStates`) stay the
same, and the output reports a GNSS position, or the same place as the output before, or NO_LEVEL. -/
theorem C65_silence {ls : List Level} {c : Cfg} (hc : Client ls c) (g : Garbage) (batches : List (List Measurement))
    {s : State} {outs : List (Output × DebugState)} (h : navigateAll c (init c g) batches = .ok (s, outs))
    (m : Measurement) (hsil : Silent ls c.cs (taken batches) m) :
    ∃ s' out dbg, navigate c s [m] = .ok (s', [(out, dbg)]) ∧ s'.indoorPos = s.indoorPos ∧ s'.post = s.post ∧
      dbg.indoorPosition = ⟨s.post.indoorPos.x, s.post.indoorPos.y⟩ ∧
      ((out.status = .OK ∧ out.provider = some .GNSS) ∨
       (∃ o, outs.getLast? = some o ∧ SamePlace o.1 out) ∨
       (out.status = .NO_LEVEL ∧ ∀ o, outs.getLast? = some o → o.1.status ≠ .OK)) := by
  have ht := history_traced hc h
  obtain ⟨s', out, dbg, x, l, h1, hst, hd, -, hpost, hind, hcase⟩ := silent_step hc ht hsil
  refine ⟨s', out, dbg, h1, hind, hpost, by rw [hd]; simp only [debugState]; rw [hpost], ?_⟩
  obtain ⟨hsh, -, herr⟩ := stepped_shows hc hst
  have hlast : ∀ o, outs.getLast? = some o → Shows ls s.position o.1 := by
    rw [navigateAll_eq] at h
    exact fun o ho => last_shows hc (inv_init hc g) _ h ho
  rcases hcase with ⟨hne, hp, -⟩ | ⟨-, hp, hs⟩
  · left
    have hg := (gnss_sense ht.gnss hst.sense).1 hne
    rcases hsh with ⟨he, -⟩ | ⟨-, hok, lv, -, -, -, -, -, -, e5⟩
    · rw [hp, hne] at he; cases he
    · exact ⟨hok, by rw [e5, hp, hg]⟩
  · right
    cases he : s.position.isEmpty with
    | true =>
      right
      rw [hp, he] at herr
      refine ⟨by rw [herr rfl, hs]; rfl, ?_⟩
      intro o ho
      rcases hlast o ho with ⟨-, h2, -⟩ | ⟨h2, -⟩
      · exact h2
      · rw [he] at h2; cases h2
    | false =>
      left
      rw [hp] at hsh
      obtain ⟨o, ho⟩ := last_output hc h he
      exact ⟨o, ho, shows_same hc.map.nodup (hlast o ho) hsh he⟩

/-- **C64.** An output with status OK is never followed by one with status NO_LEVEL. -/
theorem C64_never_lost {ls : List Level} {c : Cfg} (hc : Client ls c) (g : Garbage) (batches : List (List Measurement))
    {s : State} {outs before after : List (Output × DebugState)} {a b : Output × DebugState}
    (h : navigateAll c (init c g) batches = .ok (s, outs)) (hab : outs = before ++ a :: b :: after)
    (ha : a.1.status = .OK) : b.1.status ≠ .NO_LEVEL := by
  rw [navigateAll_eq] at h
  generalize taken batches = ms at h
  induction ms using List.reverseRecOn generalizing s outs after with
  | nil => cases h; simp at hab
  | append_singleton ms m ih =>
    obtain ⟨s1, outs1, r, h1, h2, h3⟩ := runs_snoc h
    rw [h3] at hab
    cases after using List.reverseRecOn with
    | nil =>
      have e : outs1 ++ [r] = (before ++ [a]) ++ [b] := by rw [hab]; simp
      obtain ⟨e1, e2⟩ := List.append_inj' e rfl
      cases e2
      have hl := last_shows hc (inv_init hc g) _ h1 (o := a) (by rw [e1]; simp)
      obtain ⟨x, l, hst, -⟩ := step_parts hc (traced_runs hc g _ h1).inv h2
      obtain ⟨hsh, -, herr⟩ := stepped_shows hc hst
      intro hb
      rcases hsh with ⟨he, -⟩ | ⟨-, hok, -⟩
      · have hs := herr he
        rw [hb] at hs
        have hno : l.status = .NO_LEVEL := by
          by_cases ho : l.status = .OK
          · rw [if_pos ho] at hs; cases hs
          · rw [if_neg ho] at hs; exact hs.symm
        have hp : s.position = s1.position := by
          rw [hst.state]
          exact no_level_position hc hst (traced_runs hc g _ h1).inv hno
        rw [hp] at he
        rcases hl with ⟨-, h4, -⟩ | ⟨h4, -⟩
        · exact h4 ha
        · rw [he] at h4; cases h4
      · rw [hb] at hok; cases hok
    | append_singleton after z _ =>
      have e : outs1 ++ [r] = (before ++ a :: b :: after) ++ [z] := by rw [hab]; simp
      obtain ⟨e1, -⟩ := List.append_inj' e rfl
      exact ih e1 h1

/-- **C65.** While the last admitted radio signal is younger than the no-signal threshold, a level of the map that
the level estimator answers is used: the position is the post-processed one of the indoor estimator (fused with
the outdoor position) for this level. -/
theorem C65_fresh {ls : List Level} {c : Cfg} (hc : Client ls c) (ha : 0 < c.cs.noActionTimeThreshold) (g : Garbage)
    (batches : List (List Measurement)) {s : State} {outs : List (Output × DebugState)}
    (h : navigateAll c (init c g) batches = .ok (s, outs)) (m : Measurement) (hf : Fresh ls c.cs (taken batches) m) :
    ∃ x s' out dbg, sense c s m = .ok x ∧ navigate c s [m] = .ok (s', [(out, dbg)]) ∧
      ∀ lv ∈ ls, lv.id = x.levelId → ∃ i p, indoorPosition c s.indoorPos lv m.ts x.radio = .ok i ∧
        let fused := Post.fusePositions c.cs s.post m.ts i.2.1 x.outdoorPos i.1
        Post.getProcessedPosition c.cs (c.env.allowed lv) fused.2 fused.1 m.ts x.info.lastMotionTs lv = some p ∧
        s'.position = p.1 ∧ s'.post = p.2 ∧ s'.indoorPos = i.2.2 := by
  have ht := history_traced hc h
  obtain ⟨s', out, dbg, x, l, h1, hst, -⟩ := one_parts hc ht.inv m
  refine ⟨x, s', out, dbg, hst.sense, h1, ?_⟩
  intro lv hlv hid
  have hlev := fresh_level hc ha ht hf hst.sense
  obtain ⟨lv', i, p, ph, hat⟩ := locate_level hc ht.inv hst.sensed ⟨lv, hlv, by rw [hlev]; exact hid⟩
  have e : lv' = lv := by
    have h2 := level_of_mem hc.map.nodup hat.mem
    rw [hat.id, hlev, ← hid, level_of_mem hc.map.nodup hlv] at h2
    exact (Option.some.inj h2).symm
  subst e
  obtain ⟨-, -, -, -, -, -, e4, -⟩ := sense_parts hst.sense
  have hl := hat.located
  rw [hst.locate] at hl
  cases hl
  rw [hst.state]
  refine ⟨i, p, by rw [← e4]; exact hat.indoor, ?_, rfl, rfl, rfl⟩
  rw [← e4]
  exact hat.processed

/-- The positions that `getStates` shows after a history are those of the post-processor. -/
theorem last_debug {ls : List Level} {c : Cfg} (hc : Client ls c) (g : Garbage) (ms : List Measurement)
    {s : State} {outs : List (Output × DebugState)} (h : runs c (init c g) ms = .ok (s, outs)) :
    ((outs.getLast?.map (fun o => o.2.indoorPosition)).getD ⟨0, 0⟩ : Geo.XYPoint) = s.post.indoorPos.toXY ∧
    ((outs.getLast?.map (fun o => o.2.outdoorPosition)).getD ⟨0, 0⟩ : Geo.XYPoint) = s.post.outdoorPos.toXY := by
  induction ms using List.reverseRecOn generalizing s outs with
  | nil => cases h; exact ⟨rfl, rfl⟩
  | append_singleton ms m ih =>
    obtain ⟨s1, outs1, r, h1, h2, h3⟩ := runs_snoc h
    obtain ⟨x, l, -, hd⟩ := step_parts hc (traced_runs hc g _ h1).inv h2
    rw [h3, List.getLast?_append]
    exact ⟨by change r.2.indoorPosition = _; rw [hd]; rfl, by change r.2.outdoorPosition = _; rw [hd]; rfl⟩

/-- **C65.** The positions that `getStates` shows: in silence those shown before; while a level of the map is used, the
indoor position just estimated and the outdoor position, each if there is one, and otherwise the one shown before. -/
theorem C65_debug {ls : List Level} {c : Cfg} (hc : Client ls c) (ha : 0 < c.cs.noActionTimeThreshold) (g : Garbage)
    (batches : List (List Measurement)) {s : State} {outs : List (Output × DebugState)}
    (h : navigateAll c (init c g) batches = .ok (s, outs)) (m : Measurement) :
    let indoorBefore := (outs.getLast?.map (fun o => o.2.indoorPosition)).getD ⟨0, 0⟩
    let outdoorBefore := (outs.getLast?.map (fun o => o.2.outdoorPosition)).getD ⟨0, 0⟩
    ∃ x s' out dbg, sense c s m = .ok x ∧ navigate c s [m] = .ok (s', [(out, dbg)]) ∧
      dbg.stepCounter = x.info.stepCounter ∧ dbg.stepLen = x.info.distance ∧
      (Silent ls c.cs (taken batches) m → dbg.indoorPosition = indoorBefore ∧ dbg.outdoorPosition = outdoorBefore) ∧
      (Fresh ls c.cs (taken batches) m → ∀ lv ∈ ls, lv.id = x.levelId →
        ∃ i, indoorPosition c s.indoorPos lv m.ts x.radio = .ok i ∧
          dbg.indoorPosition = (if i.2.1.isEmpty then indoorBefore else ⟨i.2.1.x, i.2.1.y⟩) ∧
          dbg.outdoorPosition = (if x.outdoorPos.isEmpty then outdoorBefore else ⟨x.outdoorPos.x, x.outdoorPos.y⟩)) := by
  have ht := history_traced hc h
  intro indoorBefore outdoorBefore
  obtain ⟨b1, b2⟩ := last_debug hc g _ (by rw [navigateAll_eq] at h; exact h)
  obtain ⟨s', out, dbg, x, l, h1, hst, hd⟩ := one_parts hc ht.inv m
  refine ⟨x, s', out, dbg, hst.sense, h1, by rw [hd]; rfl, by rw [hd]; rfl, ?_, ?_⟩
  · intro hsil
    obtain ⟨s2, out2, dbg2, x2, l2, k1, -, kd, -, kpost, -⟩ := silent_step hc ht hsil
    rw [h1] at k1
    cases k1
    rw [kd]
    simp only [debugState]
    rw [kpost]
    exact ⟨b1.symm, b2.symm⟩
  · intro hf lv hlv hid
    have hlev := fresh_level hc ha ht hf hst.sense
    obtain ⟨lv', i, p, ph, hat⟩ := locate_level hc ht.inv hst.sensed ⟨lv, hlv, by rw [hlev]; exact hid⟩
    have e : lv' = lv := by
      have h2 := level_of_mem hc.map.nodup hat.mem
      rw [hat.id, hlev, ← hid, level_of_mem hc.map.nodup hlv] at h2
      exact (Option.some.inj h2).symm
    subst e
    obtain ⟨-, -, -, -, -, -, e4, -⟩ := sense_parts hst.sense
    have hl := hat.located
    rw [hst.locate] at hl
    cases hl
    refine ⟨i, by rw [← e4]; exact hat.indoor, ?_⟩
    obtain ⟨q1, q2, -⟩ := Post.process_frame hat.processed
    have hp : s'.post = p.2 := by rw [hst.state]
    rw [hd]
    simp only [debugState]
    rw [hp, q1, q2]
    simp only [Post.fusePositions, Post.fillOutdoor, Post.fillIndoor]
    constructor
    · cases hi : i.2.1.isEmpty <;> cases ho : x.outdoorPos.isEmpty <;> simp
      all_goals exact b1.symm
    · cases hi : i.2.1.isEmpty <;> cases ho : x.outdoorPos.isEmpty <;> simp
      all_goals exact b2.symm

/-! ## C66 -/

/-- **C66.** A fix never expires while no other sensor message arrives: in silence, if the last sensor message is a
fix on a level of the map (with enough satellites, without the sigma filter), the output for a measurement at
any later time reports the place of the fix. -/
theorem C66_no_expiry {ls : List Level} {c : Cfg} (hc : Client ls c) (hsig : c.cs.useGpsSigmaFilter = false) (g : Garbage)
    (batches : List (List Measurement)) {s : State} {outs : List (Output × DebugState)}
    (h : navigateAll c (init c g) batches = .ok (s, outs)) (m : Measurement) (hsil : Silent ls c.cs (taken batches) m)
    (lv : Level) (hlv : lv ∈ ls) (hb : Geo.ValidLon lv.bindingPoint.longitude)
    (hcos : Real.cos (Geo.degToRad lv.bindingPoint.latitude) ≠ 0) :
    let fix := lastSensor g.sensor (taken batches ++ [m])
    let k : Estim.Call := ⟨m.ts, fix, lastNmea g.nmea (taken batches ++ [m]), false⟩
    fix.data.type = .LOCATION → Geo.ValidLon fix.data.values.y → Estim.FirstCovering c.cs (collect ls) k lv →
    Estim.SatellitesOk c.cs k →
    ∃ s' out dbg, navigate c s [m] = .ok (s', [(out, dbg)]) ∧ out.status = .OK ∧ out.provider = some .GNSS ∧
      out.posLevel = lv.id ∧ out.posLatitude = fix.data.values.x ∧ out.posLongitude = fix.data.values.y ∧
      out.posR = some (max fix.data.values.z c.cs.minGpsDeviation) := by
  intro fix k hloc hlon hcov hsat
  have ht := history_traced hc h
  obtain ⟨s', out, dbg, x, l, h1, hst, -, -, -, -, hcase⟩ := silent_step hc ht hsil
  refine ⟨s', out, dbg, h1, ?_⟩
  have es : (Radio.updateMeasurements c.pre s.pre m).sensor = fix := by
    rw [update_sensor, ht.sensor]; exact (lastSensor_snoc _ _ _).symm
  have en : (Radio.updateMeasurements c.pre s.pre m).nmea = k.nmea := by
    rw [update_nmea, ht.nmea]; exact (lastNmea_snoc _ _ _).symm
  obtain ⟨-, -, -, -, -, -, -, -, h7⟩ := sense_parts hst.sense
  rw [es, en, hc.parts.levels] at h7
  obtain ⟨st', h8⟩ := Estim.C35_reported c.cs hsig (collect ls) s.outdoor { k with indoor := s.flagIndoorPos } hloc lv hcov hsat
  dsimp only at h8
  rw [h7] at h8
  simp only [Option.some.injEq, Prod.mk.injEq] at h8
  rcases hcase with ⟨-, hp, -⟩ | ⟨he, -⟩
  · rw [h8.1] at hp
    rcases (stepped_shows hc hst).1 with ⟨he, -⟩ | ⟨-, hok, lv', hlv', hid, e1, e2, e3, e4, e5⟩
    · rw [hp] at he; cases he
    · rw [hp] at hid e1 e2 e3 e4 e5
      have : lv' = lv := by
        have h2 := level_of_mem hc.map.nodup hlv'
        rw [hid] at h2
        change level (collect ls) lv.id = some lv' at h2
        rw [level_of_mem hc.map.nodup hlv] at h2
        exact (Option.some.inj h2).symm
      subst this
      have hgeo : Geo.localToGps (Estim.fixPosition c.cs { k with indoor := s.flagIndoorPos } lv').toXY lv'.bindingPoint =
          ⟨fix.data.values.x, fix.data.values.y⟩ :=
        Geo.C01_geo_local_geo ⟨fix.data.values.x, fix.data.values.y⟩ lv'.bindingPoint hlon hb hcos
      rw [hgeo] at e2 e3
      exact ⟨hok, e5, e1, e2, e3, e4⟩
  · rw [h8.1] at he; cases he

/-- **C66.** Once the last sensor message is of another kind, a fix does expire: in silence, if every measurement
handled while a fix was the last sensor message is older than the validity window, the output reports the same
place as before, or NO_LEVEL. -/
theorem C66_expiry {ls : List Level} {c : Cfg} (hc : Client ls c) (g : Garbage)
    (batches : List (List Measurement)) {s : State} {outs : List (Output × DebugState)}
    (h : navigateAll c (init c g) batches = .ok (s, outs)) (m : Measurement) (hsil : Silent ls c.cs (taken batches) m)
    (hs : (lastSensor g.sensor (taken batches ++ [m])).data.type ≠ .LOCATION)
    (hold : ∀ a e b, taken batches = a ++ e :: b → (lastSensor g.sensor (a ++ [e])).data.type = .LOCATION →
      (m.ts - e.ts : ℝ) / 1000 > c.cs.gpsValidTimeWindowSec) :
    ∃ s' out dbg, navigate c s [m] = .ok (s', [(out, dbg)]) ∧ s'.position = s.position ∧
      ((∃ o, outs.getLast? = some o ∧ SamePlace o.1 out) ∨ out.status = .NO_LEVEL) := by
  have ht := history_traced hc h
  obtain ⟨s', out, dbg, x, l, h1, hst, -, -, -, -, hcase⟩ := silent_step hc ht hsil
  obtain ⟨s2, out2, dbg2, h1', -, -, -, hc2⟩ := C65_silence hc g batches h m hsil
  rw [h1] at h1'
  cases h1'
  refine ⟨s', out, dbg, h1, ?_⟩
  have es : (Radio.updateMeasurements c.pre s.pre m).sensor = lastSensor g.sensor (taken batches ++ [m]) := by
    rw [update_sensor, ht.sensor]; exact (lastSensor_snoc _ _ _).symm
  obtain ⟨-, -, -, -, -, -, -, -, h7⟩ := sense_parts hst.sense
  obtain ⟨h8, -⟩ := Estim.outdoor_step c.cs c.levels s.outdoor
    ⟨m.ts, (Radio.updateMeasurements c.pre s.pre m).sensor, (Radio.updateMeasurements c.pre s.pre m).nmea, s.flagIndoorPos⟩ _ _ h7
  have hnf : ¬ (Radio.updateMeasurements c.pre s.pre m).sensor.data.type = .LOCATION := by rw [es]; exact hs
  have hemp : x.outdoorPos.isEmpty = true := by
    rw [(h8 hnf).2]
    split_ifs with hage
    · rfl
    · cases he : s.outdoor.last.isEmpty with
      | true => rfl
      | false =>
        exfalso
        obtain ⟨a, e, b, e1, e2, e3⟩ := ht.last he
        apply hage
        have := hold a e b e1 e2
        rw [e3]
        push_cast
        exact this
  rcases hcase with ⟨he, -⟩ | ⟨-, hp, hst2⟩
  · rw [hemp] at he; cases he
  · refine ⟨hp, ?_⟩
    rcases hc2 with ⟨hok, hpr⟩ | hc2 | hc2
    · left
      cases he : s.position.isEmpty with
      | true =>
        rcases (stepped_shows hc hst).1 with ⟨-, hno, -⟩ | ⟨h0, -⟩
        · exact absurd hok hno
        · rw [hp, he] at h0; cases h0
      | false =>
        have hsh := (stepped_shows hc hst).1
        rw [hp] at hsh
        obtain ⟨o, ho⟩ := last_output hc h he
        rw [navigateAll_eq] at h
        exact ⟨o, ho, shows_same hc.map.nodup (last_shows hc (inv_init hc g) _ h ho) hsh he⟩
    · exact Or.inl hc2
    · exact Or.inr hc2.1

end Verif.Nav
