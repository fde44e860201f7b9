import Verif.Outdoor.Spec
import Verif.Nav.Examples

/-!
# C120: what a client answers that hears no transmitter
-/

namespace Verif.Outdoor

open Verif.Levels Verif.Nav Verif.Estim
open Verif.Knn (Result)
open Verif.Geo (XYPoint)

theorem calls_snoc (g : Garbage) (ms : List Measurement) (m : Measurement) :
    calls g (ms ++ [m]) = calls g ms ++ [⟨m.ts, lastSensor g.sensor (ms ++ [m]), lastNmea g.nmea (ms ++ [m]), false⟩] := by
  unfold calls
  rw [List.length_append, List.length_singleton, List.range_succ, List.filterMap_append]
  congr 1
  · apply List.filterMap_congr
    intro k hk
    have hk : k < ms.length := List.mem_range.mp hk
    rw [List.getElem?_append_left hk, List.take_append_of_le_length hk]
  · have e2 : (ms ++ [m]).take (ms.length + 1) = ms ++ [m] := by simp
    simp [e2]

theorem calls_ts (g : Garbage) (ms : List Measurement) : (calls g ms).map Call.ts = ms.map (·.ts) := by
  induction ms using List.reverseRecOn with
  | nil => rfl
  | append_singleton ms m ih => rw [calls_snoc, List.map_append, ih, List.map_append]; rfl

theorem accepted_unique {cs : CommonSettings} {ls : List Level} {a : List Call} {k : Call} {l l' : Level}
    (h : Accepted cs ls a k l) (h' : Accepted cs ls a k l') : l' = l := firstCovering_unique h.2.1 h'.2.1

theorem last_now {cs : CommonSettings} {ls : List Level} {ks : List Call} {k : Call} {l : Level} (h : Accepted cs ls ks k l) :
    LastAccepted cs ls (ks ++ [k]) k l :=
  ⟨ks, [], rfl, h, fun b1 j b2 hb => by simp at hb⟩

theorem last_still {cs : CommonSettings} {ls : List Level} {ks : List Call} {k j : Call} {l : Level} (h : LastAccepted cs ls ks k l)
    (hn : ∀ l', ¬ Accepted cs ls ks j l') : LastAccepted cs ls (ks ++ [j]) k l := by
  obtain ⟨a, b, e, h1, h2⟩ := h
  refine ⟨a, b ++ [j], by rw [e]; simp, h1, fun b1 i b2 hb l' => ?_⟩
  rcases List.eq_nil_or_concat b2 with rfl | ⟨b2', i', rfl⟩
  · obtain ⟨rfl, hi⟩ := List.append_inj' hb rfl
    cases hi
    rw [← e]; exact hn l'
  · rw [List.concat_eq_append, ← List.cons_append, ← List.append_assoc] at hb
    obtain ⟨hb, -⟩ := List.append_inj' hb rfl
    exact h2 b1 i b2' hb l'

theorem none_still {cs : CommonSettings} {ls : List Level} {ks : List Call} {j : Call} (h : NoneAccepted cs ls ks)
    (hn : ∀ l', ¬ Accepted cs ls ks j l') : NoneAccepted cs ls (ks ++ [j]) := by
  intro a i b e l'
  rcases List.eq_nil_or_concat b with rfl | ⟨b', i', rfl⟩
  · obtain ⟨rfl, hi⟩ := List.append_inj' e rfl
    cases hi
    exact hn l'
  · rw [List.concat_eq_append, ← List.cons_append, ← List.append_assoc] at e
    obtain ⟨e, -⟩ := List.append_inj' e rfl
    exact h a i b' e l'

theorem default_empty : Position.default.isEmpty = true := rfl

/-- One call of the estimator. -/
theorem call_step {cs : CommonSettings} (hw : cs.useGpsSigmaFilter = true → 0 < cs.sigmaFilterWindow) {ls : List Level}
    {ks : List Call} {k : Call}
    (htimes : cs.useGpsSigmaFilter = true → (∀ j ∈ ks ++ [k], 0 < j.ts) ∧ (ks ++ [k]).Pairwise (fun a b => a.ts < b.ts))
    {st st' : OutdoorState} {out : Position} (hrun : outdoorRun cs (collect ls) ks = some st)
    (h : outdoorPosition cs (collect ls) st k.ts k.sensor k.nmea k.indoor = some (out, st')) :
    (∃ l, Accepted cs ls ks k l ∧ out = fixPosition cs k l ∧ st'.last = fixPosition cs k l) ∨
    ((∀ l, ¬ Accepted cs ls ks k l) ∧ st'.last = st.last ∧ (out = Position.default ∨ out = st.last)) := by
  obtain ⟨s1, s2⟩ := outdoor_step cs (collect ls) st k out st' h
  by_cases hf : IsFix k
  · -- whether the fix is reported
    have key : ∀ l, FirstCovering cs (collect ls) k l → SatellitesOk cs k →
        ((cs.useGpsSigmaFilter = true → Passes cs ls ks k l) → out = fixPosition cs k l) ∧
        (¬ (cs.useGpsSigmaFilter = true → Passes cs ls ks k l) → out = Position.default) := by
      intro l hl hsat
      cases hs : cs.useGpsSigmaFilter with
      | false =>
        obtain ⟨st2, e⟩ := C35_reported cs hs (collect ls) st k hf l hl hsat
        rw [h, Option.some.injEq, Prod.mk.injEq] at e
        exact ⟨fun _ => e.1, fun hn => absurd (fun h => by cases h) hn⟩
      | true =>
        obtain ⟨t1, t2⟩ := htimes hs
        obtain ⟨st0, out0, st2, e0, e1, e2, e3⟩ := C35_filtered cs hs (hw hs) (collect ls) ks k t1 t2 hf l hl hsat
        rw [hrun, Option.some.injEq] at e0
        subst e0
        rw [h, Option.some.injEq, Prod.mk.injEq] at e1
        obtain ⟨rfl, -⟩ := e1
        exact ⟨fun hp => e2 (hp rfl), fun hn => e3 (fun hp => hn (fun _ => hp))⟩
    by_cases ha : ∃ l, Accepted cs ls ks k l
    · obtain ⟨l, ha⟩ := ha
      have ho := (key l ha.2.1 ha.2.2.1).1 ha.2.2.2
      refine .inl ⟨l, ha, ho, ?_⟩
      rcases s2 hf with ⟨hd, -⟩ | ⟨l', -, -, -, hlast⟩
      · rw [ho] at hd
        have := congrArg Position.isEmpty hd
        exact absurd this (by rw [default_empty]; exact Bool.false_ne_true)
      · rw [hlast, ho]
    · refine .inr ⟨fun l hl => ha ⟨l, hl⟩, ?_⟩
      rcases s2 hf with ⟨hd, hlast⟩ | ⟨l, hl, hsat, ho, -⟩
      · exact ⟨hlast, .inl hd⟩
      · exfalso
        have := (key l hl hsat).2 (fun hp => ha ⟨l, hf, hl, hsat, hp⟩)
        rw [ho] at this
        have := congrArg Position.isEmpty this
        exact absurd this (by rw [default_empty]; exact Bool.false_ne_true)
  · obtain ⟨e1, e2⟩ := s1 hf
    refine .inr ⟨fun l hl => hf hl.1, e1, ?_⟩
    rw [e2]
    split_ifs
    · exact .inl rfl
    · exact .inr rfl

/-- What is known about the state of a client that has heard no transmitter. -/
structure Wild (ls : List Level) (c : Cfg) (g : Garbage) (ms : List Measurement) (s : State) : Prop where
  traced : Traced ls c g ms s
  run : outdoorRun c.cs (collect ls) (calls g ms) = some s.outdoor
  flag : s.flagIndoorPos = false
  same : s.position = s.outdoor.last
  last : (NoneAccepted c.cs ls (calls g ms) ∧ s.outdoor.last = Position.default) ∨
    ∃ k l, LastAccepted c.cs ls (calls g ms) k l ∧ s.outdoor.last = fixPosition c.cs k l

theorem wild_init {ls : List Level} {c : Cfg} (hc : Client ls c) (g : Garbage) : Wild ls c g [] (init c g) where
  traced := traced_runs hc g [] rfl
  run := rfl
  flag := rfl
  same := rfl
  last := .inl ⟨fun a j b e => by simp [calls] at e, rfl⟩

theorem wild_step {ls : List Level} {c : Cfg} (hc : Client ls c) {g : Garbage} {ms : List Measurement} {s : State}
    (h : Wild ls c g ms s) {m : Measurement} (hno : ∀ e ∈ ms ++ [m], ¬ Heard ls c.cs e) (ht : Timed c.cs (ms ++ [m])) {s' : State}
    {r : Output × DebugState} (hs : step c s m = .ok (s', r)) :
    Wild ls c g (ms ++ [m]) s' ∧ ∃ x l, Stepped ls c s m s' r.1 x l ∧ (s'.position.isEmpty = true → l.status = .NO_LEVEL) := by
  obtain ⟨htr, x, l, hst, -⟩ := traced_step hc h.traced hs
  have hsil : Silent ls c.cs ms m := fun e he hh => absurd hh (hno e he)
  obtain ⟨-, -, -, a4, a5⟩ := locate_nowhere hc hst.locate (silent_level hc h.traced hsil hst.sense)
  obtain ⟨-, -, -, f4⟩ := locate_frame hst.locate
  obtain ⟨-, -, -, -, -, -, -, -, h7⟩ := sense_parts hst.sense
  rw [update_sensor, update_nmea, h.traced.sensor, h.traced.nmea, ← lastSensor_snoc, ← lastNmea_snoc, h.flag, hc.parts.levels] at h7
  set k : Call := ⟨m.ts, lastSensor g.sensor (ms ++ [m]), lastNmea g.nmea (ms ++ [m]), false⟩ with hk
  have hcalls : calls g (ms ++ [m]) = calls g ms ++ [k] := calls_snoc g ms m
  have h7' : outdoorPosition c.cs (collect ls) s.outdoor k.ts k.sensor k.nmea k.indoor = some (x.outdoorPos, x.outdoor) := h7
  have hts : c.cs.useGpsSigmaFilter = true → (∀ j ∈ calls g ms ++ [k], 0 < j.ts) ∧
      (calls g ms ++ [k]).Pairwise (fun a b => a.ts < b.ts) := by
    intro hsig
    obtain ⟨t1, t2⟩ := ht hsig
    rw [← hcalls]
    have e := calls_ts g (ms ++ [m])
    constructor
    · intro j hj
      have : j.ts ∈ (calls g (ms ++ [m])).map Call.ts := List.mem_map_of_mem hj
      rw [e] at this
      obtain ⟨i, hi, hi2⟩ := List.mem_map.mp this
      rw [← hi2]; exact t1 i hi
    · have : ((calls g (ms ++ [m])).map Call.ts).Pairwise (· < ·) := by
        rw [e, List.pairwise_map]; exact t2
      rwa [List.pairwise_map] at this
  have hstep := call_step hc.settings.sigma hts h.run h7'
  have hout : s'.outdoor = x.outdoor := by rw [hst.state]; exact f4
  have hpos : (x.outdoorPos.isEmpty = false ∧ s'.position = x.outdoorPos ∧ l.status = .OK) ∨
     (x.outdoorPos.isEmpty = true ∧ s'.position = s.position ∧ l.status = .NO_LEVEL) := by
    rw [hst.state]; exact a5
  -- the position
  have hlast : s'.position = x.outdoor.last := by
    rcases hstep with ⟨lv, -, e1, e2⟩ | ⟨-, e2, e1⟩
    · rcases hpos with ⟨-, p, -⟩ | ⟨p, -⟩
      · rw [p, e1, e2]
      · rw [e1] at p; cases p
    · rcases hpos with ⟨p0, p, -⟩ | ⟨-, p, -⟩
      · rcases e1 with e1 | e1
        · rw [e1] at p0; cases p0
        · rw [p, e1, e2]
      · rw [p, h.same, e2]
  refine ⟨⟨htr, ?_, ?_, ?_, ?_⟩, x, l, hst, ?_⟩
  · rw [hcalls, outdoorRun_snoc, h.run, Option.bind_some, h7', hout]; rfl
  · rw [hst.state]; exact a4
  · rw [hlast, hout]
  · rw [hcalls, hout]
    rcases hstep with ⟨lv, e0, e1, e2⟩ | ⟨e0, e2, -⟩
    · exact .inr ⟨k, lv, last_now e0, e2⟩
    · rw [e2]
      rcases h.last with ⟨n1, n2⟩ | ⟨k', lv, n1, n2⟩
      · exact .inl ⟨none_still n1 e0, n2⟩
      · exact .inr ⟨k', lv, last_still n1 e0, n2⟩
  · intro he
    rcases hpos with ⟨p0, p, -⟩ | ⟨-, -, p⟩
    · rw [p, p0] at he; cases he
    · exact p

theorem timed_init {cs : CommonSettings} {ms : List Measurement} {m : Measurement} (h : Timed cs (ms ++ [m])) : Timed cs ms := by
  intro hs
  obtain ⟨h1, h2⟩ := h hs
  exact ⟨fun e he => h1 e (by simp [he]), (List.pairwise_append.mp h2).1⟩

theorem wild_runs {ls : List Level} {c : Cfg} (hc : Client ls c) (g : Garbage) (ms : List Measurement)
    (hno : ∀ e ∈ ms, ¬ Heard ls c.cs e) (ht : Timed c.cs ms) {s : State} {outs : List (Output × DebugState)}
    (h : runs c (init c g) ms = .ok (s, outs)) : Wild ls c g ms s := by
  induction ms using List.reverseRecOn generalizing s outs with
  | nil => cases h; exact wild_init hc g
  | append_singleton ms m ih =>
    obtain ⟨s0, o0, r, h1, h2, -⟩ := runs_snoc h
    exact (wild_step hc (ih (fun e he => hno e (by simp [he])) (timed_init ht) h1) hno ht h2).1

theorem last_not_none {cs : CommonSettings} {ls : List Level} {ks : List Call} {k : Call} {l : Level} (h : LastAccepted cs ls ks k l)
    (hn : NoneAccepted cs ls ks) : False := by
  obtain ⟨a, b, e, h1, -⟩ := h
  exact hn a k b e l h1

theorem last_unique {cs : CommonSettings} {ls : List Level} {ks : List Call} {k k' : Call} {l l' : Level}
    (h : LastAccepted cs ls ks k l) (h' : LastAccepted cs ls ks k' l') : k' = k ∧ l' = l := by
  obtain ⟨a, b, e, h1, h2⟩ := h
  obtain ⟨a', b', e', h1', h2'⟩ := h'
  rw [e] at e'
  rcases List.append_eq_append_iff.mp e' with ⟨x, hx1, hx2⟩ | ⟨x, hx1, hx2⟩
  · cases x with
    | nil =>
      simp at hx1 hx2
      obtain ⟨rfl, -⟩ := hx2
      subst hx1
      exact ⟨rfl, accepted_unique h1 h1'⟩
    | cons y ys =>
      simp at hx2
      obtain ⟨rfl, hb⟩ := hx2
      exact absurd h1' (by rw [hx1]; exact h2 ys k' b' hb l')
  · cases x with
    | nil =>
      simp at hx1 hx2
      obtain ⟨rfl, -⟩ := hx2
      subst hx1
      exact ⟨rfl, accepted_unique h1 h1'⟩
    | cons y ys =>
      simp at hx2
      obtain ⟨rfl, hb⟩ := hx2
      exact absurd h1 (by rw [hx1]; exact h2' ys k b hb l)

/-- **C120.** A client that hears no transmitter: once a fix has been taken over, every answer shows the last fix that was taken
over, however old it is, on the first floor that covers it. -/
theorem C120_fix {ls : List Level} {c : Cfg} (hc : Client ls c) (g : Garbage) (batches : List (List Measurement)) {s : State}
    {outs : List (Output × DebugState)} (h : navigateAll c (init c g) batches = .ok (s, outs)) (m : Measurement)
    (hno : ∀ e ∈ taken batches ++ [m], ¬ Heard ls c.cs e) (ht : Timed c.cs (taken batches ++ [m])) {k : Call} {lv : Level}
    (hlast : LastAccepted c.cs ls (calls g (taken batches ++ [m])) k lv) :
    ∃ s' out dbg, navigate c s [m] = .ok (s', [(out, dbg)]) ∧ out.status = .OK ∧ out.provider = some .GNSS ∧
      lv ∈ ls ∧ out.posLevel = lv.id ∧ out.posR = some (max k.sensor.data.values.z c.cs.minGpsDeviation) ∧
      (Geo.ValidLon lv.bindingPoint.longitude → Real.cos (Geo.degToRad lv.bindingPoint.latitude) ≠ 0 →
        Geo.ValidLon k.sensor.data.values.y →
        out.posLatitude = k.sensor.data.values.x ∧ out.posLongitude = k.sensor.data.values.y) := by
  rw [navigateAll_eq] at h
  have hw := wild_runs hc g _ (fun e he => hno e (by simp [he])) (timed_init ht) h
  obtain ⟨s', out, dbg, x, l, h1, hst, -⟩ := one_parts hc hw.traced.inv m
  have hstep : step c s m = .ok (s', (out, dbg)) := by
    rw [navigate_one] at h1
    obtain ⟨⟨s2, r⟩, e1, e2⟩ := andThen_ok h1
    cases e2
    exact e1
  obtain ⟨hw', x', l', hst', -⟩ := wild_step hc hw hno ht hstep
  refine ⟨s', out, dbg, h1, ?_⟩
  have hp : s'.position = fixPosition c.cs k lv := by
    rw [hw'.same]
    rcases hw'.last with ⟨hn, -⟩ | ⟨k', lv', hl, hp⟩
    · exact absurd hn (last_not_none hlast)
    · obtain ⟨rfl, rfl⟩ := last_unique hlast hl
      exact hp
  have hlv : lv ∈ ls := by
    obtain ⟨a, b, -, h1, -⟩ := hlast
    obtain ⟨p, q, e, -⟩ := h1.2.1
    rw [collect_levels] at e
    rw [e]; simp
  rcases (stepped_shows hc hst').1 with ⟨he, -⟩ | ⟨-, hok, lv', hlv', hid, e1, e2, e3, e4, e5⟩
  · rw [hp] at he; cases he
  · rw [hp] at hid e1 e2 e3 e4 e5
    have : lv' = lv := by
      have h2 := level_of_mem hc.map.nodup hlv'
      rw [hid] at h2
      change level (collect ls) lv.id = some lv' at h2
      rw [level_of_mem hc.map.nodup hlv] at h2
      exact (Option.some.inj h2).symm
    subst this
    refine ⟨hok, e5, hlv, e1, e4, fun hb hcos hlon => ?_⟩
    have hgeo : Geo.localToGps (fixPosition c.cs k lv').toXY lv'.bindingPoint =
        ⟨k.sensor.data.values.x, k.sensor.data.values.y⟩ :=
      Geo.C01_geo_local_geo ⟨k.sensor.data.values.x, k.sensor.data.values.y⟩ lv'.bindingPoint hlon hb hcos
    rw [hgeo] at e2 e3
    exact ⟨e2, e3⟩

/-- **C120.** As long as no fix has been taken over, the answer has no place and the status NO_LEVEL. -/
theorem C120_none {ls : List Level} {c : Cfg} (hc : Client ls c) (g : Garbage) (batches : List (List Measurement)) {s : State}
    {outs : List (Output × DebugState)} (h : navigateAll c (init c g) batches = .ok (s, outs)) (m : Measurement)
    (hno : ∀ e ∈ taken batches ++ [m], ¬ Heard ls c.cs e) (ht : Timed c.cs (taken batches ++ [m]))
    (hnone : NoneAccepted c.cs ls (calls g (taken batches ++ [m]))) :
    ∃ s' out dbg, navigate c s [m] = .ok (s', [(out, dbg)]) ∧ out.status = .NO_LEVEL ∧ Blank out := by
  rw [navigateAll_eq] at h
  have hw := wild_runs hc g _ (fun e he => hno e (by simp [he])) (timed_init ht) h
  obtain ⟨s', out, dbg, x, l, h1, hst, -⟩ := one_parts hc hw.traced.inv m
  have hstep : step c s m = .ok (s', (out, dbg)) := by
    rw [navigate_one] at h1
    obtain ⟨⟨s2, r⟩, e1, e2⟩ := andThen_ok h1
    cases e2
    exact e1
  obtain ⟨hw', x', l', hst', hstat⟩ := wild_step hc hw hno ht hstep
  refine ⟨s', out, dbg, h1, ?_⟩
  have hp : s'.position.isEmpty = true := by
    rw [hw'.same]
    rcases hw'.last with ⟨-, hp⟩ | ⟨k', lv', hl, -⟩
    · rw [hp]; rfl
    · exact absurd hnone (last_not_none hl)
  obtain ⟨hsh, -, hst2⟩ := stepped_shows hc hst'
  rcases hsh with ⟨-, -, hb⟩ | ⟨he, -⟩
  · refine ⟨?_, hb⟩
    rw [hst2 hp, hstat hp]
    rfl
  · rw [hp] at he; cases he

/-- **C120.** The two cases exclude each other and there is no other one; the last fix taken over is unique. -/
theorem C120_cases (cs : CommonSettings) (ls : List Level) (ks : List Call) :
    (NoneAccepted cs ls ks ∧ ¬ ∃ k lv, LastAccepted cs ls ks k lv) ∨
    (¬ NoneAccepted cs ls ks ∧ ∃ k lv, LastAccepted cs ls ks k lv ∧ ∀ k' lv', LastAccepted cs ls ks k' lv' → k' = k ∧ lv' = lv) := by
  have key : NoneAccepted cs ls ks ∨ ∃ k lv, LastAccepted cs ls ks k lv := by
    induction ks using List.reverseRecOn with
    | nil => exact .inl (fun a j b e => by simp at e)
    | append_singleton ks k ih =>
      by_cases h : ∃ l, Accepted cs ls ks k l
      · obtain ⟨l, h⟩ := h
        exact .inr ⟨k, l, last_now h⟩
      · have h' : ∀ l, ¬ Accepted cs ls ks k l := fun l hl => h ⟨l, hl⟩
        rcases ih with ih | ⟨k', l', ih⟩
        · exact .inl (none_still ih h')
        · exact .inr ⟨k', l', last_still ih h'⟩
  rcases key with h | ⟨k, lv, h⟩
  · exact .inl ⟨h, fun ⟨k, lv, hl⟩ => last_not_none hl h⟩
  · exact .inr ⟨last_not_none h, k, lv, h, fun k' lv' h' => last_unique h h'⟩

/-! ## One fix fills the filter -/

/-- A client with the sigma filter over `w` fixes. -/
noncomputable def filterCfg (w : ℕ) : Cfg where
  env := exEnv
  cs := { useGpsSigmaFilter := true, sigmaFilterWindow := w, sigmaFilterDelta := 0 }
  levels := collect [exLevel]
  noSignal := 35000
  noAction := 20000
  detector := .transmitters false
  indoor := .zone [("A", -59)] [("A", 10)]
  pre := Radio.mkCfg (collect [exLevel]) { useGpsSigmaFilter := true, sigmaFilterWindow := w, sigmaFilterDelta := 0 }
  fusion := Fusion.fusionConfig { useGpsSigmaFilter := true, sigmaFilterWindow := w, sigmaFilterDelta := 0 }

theorem filterClient {w : ℕ} (hw : 0 < w) : Client [exLevel] (filterCfg w) where
  map := exClient.map
  settings := ⟨fun _ => hw, fun h => (by cases h)⟩
  sort := sortsBy_insertionSort _
  radioSorts := Radio.insertionSorts_lawful
  built := by
    refine ⟨[("A", ⟨-59, 10⟩)], ?_⟩
    have hz : Estim.zoneParams [("A", ⟨-59, 10⟩)] (collect [exLevel]) = some ([("A", -59)], [("A", 10)]) := by
      simp [Estim.zoneParams, collect_levels, exLevel, bareLevel, Level.addTransmitters, List.foldlM, StdMap.find?, StdMap.set,
        StdMap.insertSorted]
    unfold mkCfg createPositionEstimator
    rw [if_neg (by simp [filterCfg])]
    have : Estim.zoneParams [("A", ⟨-59, 10⟩)] (collect [exLevel]) = some ([("A", -59)], [("A", 10)]) := hz
    rw [this]
    simp [filterCfg, createLevelEstimator]

/-- An NMEA message that does not announce satellites. -/
def note (t : Int) : Measurement := ⟨.nmea ⟨0, 0⟩, t⟩

/-- One fix at the origin, and `n` NMEA messages after it. -/
noncomputable def once (n : ℕ) : List Measurement := exFix :: (List.range n).map (fun k : ℕ => note (1001 + k))

theorem once_succ (n : ℕ) : once (n + 1) = once n ++ [note (1001 + n)] := by simp [once, List.range_succ]

/-- The last sensor message is the fix at the origin. -/
def AtOrigin (k : Call) : Prop := k.sensor.data = ⟨.LOCATION, ⟨0, 0, 5⟩⟩ ∧ k.indoor = false

theorem once_sensor (g : Garbage) (n : ℕ) : (lastSensor g.sensor (once n)).data = ⟨.LOCATION, ⟨0, 0, 5⟩⟩ := by
  induction n with
  | zero => rfl
  | succ n ih => rw [once_succ, lastSensor_snoc]; exact ih

theorem once_calls (g : Garbage) (n : ℕ) : (calls g (once n)).length = n + 1 ∧ (∀ k ∈ calls g (once n), AtOrigin k) := by
  induction n with
  | zero =>
    have : calls g (once 0) = calls g ([] ++ [exFix]) := rfl
    rw [this, calls_snoc]
    refine ⟨rfl, fun k hk => ?_⟩
    have : k ∈ [(⟨exFix.ts, lastSensor g.sensor ([] ++ [exFix]), lastNmea g.nmea ([] ++ [exFix]), false⟩ : Call)] := hk
    rw [List.mem_singleton] at this
    rw [this]
    exact ⟨rfl, rfl⟩
  | succ n ih =>
    rw [once_succ, calls_snoc]
    refine ⟨by rw [List.length_append, ih.1]; rfl, fun k hk => ?_⟩
    rcases List.mem_append.mp hk with hk | hk
    · exact ih.2 k hk
    · rw [List.mem_singleton] at hk
      rw [hk, ← once_succ]
      exact ⟨once_sensor g (n + 1), rfl⟩

theorem once_times (n : ℕ) : (∀ e ∈ once n, 0 < e.ts ∧ e.ts ≤ 1000 + n) ∧ (once n).Pairwise (fun a b => a.ts < b.ts) := by
  induction n with
  | zero => constructor <;> simp [once, exFix]
  | succ n ih =>
    rw [once_succ]
    constructor
    · intro e he
      rcases List.mem_append.mp he with he | he
      · have := ih.1 e he
        push_cast; omega
      · rw [List.mem_singleton] at he
        rw [he]
        simp only [note]
        push_cast; omega
    · rw [List.pairwise_append]
      refine ⟨ih.2, by simp, fun a ha b hb => ?_⟩
      have := (ih.1 a ha).2
      rw [List.mem_singleton] at hb
      rw [hb]
      simp only [note]
      omega

theorem once_silent (n w : ℕ) : ∀ e ∈ once n, ¬ Heard [exLevel] (filterCfg w).cs e := by
  rintro e he ⟨d, hd, -⟩
  rcases List.mem_cons.mp he with rfl | he
  · cases hd
  · obtain ⟨k, -, rfl⟩ := List.mem_map.mp he
    cases hd

theorem origin_covering (w : ℕ) {k : Call} (h : AtOrigin k) : FirstCovering (filterCfg w).cs (collect [exLevel]) k exLevel ∧
    fixOn k exLevel = ⟨0, 0⟩ := by
  have e : fixOn k exLevel = ⟨0, 0⟩ := by
    unfold fixOn
    rw [h.1]
    exact (Geo.C01_scale ⟨0, 0⟩ ⟨0, 0⟩ (by constructor <;> norm_num) (by constructor <;> norm_num)).2
  refine ⟨⟨[], [], by rw [collect_levels]; rfl, Or.inl ?_, by simp⟩, e⟩
  rw [e]
  simp [Estim.Box.Covers, exLevel, bareLevel, Level.addTransmitters]

theorem origin_clearing (w : ℕ) {k : Call} (h : AtOrigin k) : clearing (filterCfg w).cs k = [] := by
  unfold clearing
  rw [if_neg]
  rintro (h' | ⟨-, h'⟩)
  · rw [h.2] at h'; cases h'
  · exact absurd h' (by change ¬ (⊤ : EReal) < _; exact not_top_lt)

theorem origin_uses (w : ℕ) (ks : List Call) (h : ∀ k ∈ ks, AtOrigin k) :
    sinceClear (filterUses (filterCfg w).cs (collect [exLevel]) ks) = List.replicate ks.length ⟨0, 0⟩ := by
  induction ks using List.reverseRecOn with
  | nil => rfl
  | append_singleton ks k ih =>
    have hk := h k (by simp)
    obtain ⟨h1, h2⟩ := origin_covering w hk
    have e : filterUses (filterCfg w).cs (collect [exLevel]) (ks ++ [k]) =
        filterUses (filterCfg w).cs (collect [exLevel]) ks ++ [.add ⟨0, 0⟩] := by
      unfold filterUses
      rw [List.flatMap_append]
      congr 1
      have hf : IsFix k := by unfold IsFix; rw [hk.1]
      simp only [List.flatMap_cons, List.flatMap_nil, List.append_nil]
      rw [origin_clearing w hk, adding_of_covering hf h1, h2, List.nil_append]
    rw [e, sinceClear_snoc_add, ih (fun j hj => h j (by simp [hj])), List.length_append, List.length_singleton,
      List.replicate_succ']

theorem origin_passes {w : ℕ} (hw : 0 < w) {ks : List Call} {k : Call} (hks : ∀ j ∈ ks, AtOrigin j) (hk : AtOrigin k) :
    Passes (filterCfg w).cs [exLevel] ks k exLevel ↔ w ≤ ks.length := by
  unfold Passes
  rw [origin_clearing w hk, List.append_nil, origin_uses w ks hks, (origin_covering w hk).2]
  have hwin : (filterCfg w).cs.sigmaFilterWindow = w := rfl
  have hd : (filterCfg w).cs.sigmaFilterDelta = 0 := rfl
  rw [hwin, hd]
  dsimp only
  rw [List.length_replicate]
  refine ⟨fun h => h.1, fun h => ⟨h, ?_, ?_⟩⟩ <;> simp [Within3Sigma, mean, stddev, lastN]

/-- **C120.** With the filter on, each message counts the last fix again: after a single fix, `w` further messages of any other kind
of source (here NMEA messages) fill a filter of `w` fixes with it, and it is reported. Before that the client answers NO_LEVEL. -/
theorem C120_repeated (w n : ℕ) (hw : 0 < w) (g : Garbage) :
    ∃ s outs s' out dbg, navigateAll (filterCfg w) (init (filterCfg w) g) [once n] = .ok (s, outs) ∧
      navigate (filterCfg w) s [note (1001 + n)] = .ok (s', [(out, dbg)]) ∧
      (n + 1 < w → out.status = .NO_LEVEL) ∧
      (w ≤ n + 1 → out.status = .OK ∧ out.provider = some .GNSS ∧ out.posLevel = "A" ∧ out.posLatitude = 0 ∧ out.posLongitude = 0) := by
  obtain ⟨s, outs, h1, -⟩ := C79_total (filterClient hw) g [once n]
  have htk : taken [once n] = once n := by
    simp [taken, records_ordered _ ((once_times n).2.imp (fun h => h.le))]
  have hsnoc : taken [once n] ++ [note (1001 + n)] = once (n + 1) := by rw [htk, once_succ]
  have hno : ∀ e ∈ taken [once n] ++ [note (1001 + n)], ¬ Heard [exLevel] (filterCfg w).cs e := by
    rw [hsnoc]; exact once_silent (n + 1) w
  have ht : Timed (filterCfg w).cs (taken [once n] ++ [note (1001 + n)]) := by
    rw [hsnoc]
    exact fun _ => ⟨fun e he => ((once_times (n + 1)).1 e he).1, (once_times (n + 1)).2⟩
  set k : Call := ⟨(note (1001 + n)).ts, lastSensor g.sensor (once n ++ [note (1001 + n)]),
    lastNmea g.nmea (once n ++ [note (1001 + n)]), false⟩ with hk
  have hcalls : calls g (once (n + 1)) = calls g (once n) ++ [k] := by rw [once_succ, calls_snoc]
  have hkO : AtOrigin k := ⟨by rw [hk, ← once_succ]; exact once_sensor g (n + 1), rfl⟩
  obtain ⟨hl, hO⟩ := once_calls g n
  by_cases hn : w ≤ n + 1
  · have hacc : Accepted (filterCfg w).cs [exLevel] (calls g (once n)) k exLevel := by
      refine ⟨by unfold IsFix; rw [hkO.1], (origin_covering w hkO).1, ?_, fun _ => ?_⟩
      · intro h
        rw [hk] at h
        dsimp only at h
        rw [lastNmea_snoc] at h
        cases h
      · rw [origin_passes hw hO hkO, hl]; exact hn
    obtain ⟨s', out, dbg, e1, e2, e3, -, e4, -, e5⟩ := C120_fix (filterClient hw) g [once n] h1 (note (1001 + n)) hno ht
      (k := k) (lv := exLevel) (by rw [hsnoc, hcalls]; exact last_now hacc)
    obtain ⟨e6, e7⟩ := e5 ex_geo.1 ex_geo.2 (by rw [hkO.1]; change Geo.ValidLon 0; unfold Geo.ValidLon; norm_num)
    rw [hkO.1] at e6 e7
    exact ⟨s, outs, s', out, dbg, h1, e1, fun h => by omega, fun _ => ⟨e2, e3, e4, e6, e7⟩⟩
  · have hnone : NoneAccepted (filterCfg w).cs [exLevel] (calls g (taken [once n] ++ [note (1001 + n)])) := by
      rw [hsnoc]
      obtain ⟨hl', hO'⟩ := once_calls g (n + 1)
      intro a j b e l hacc
      rw [e] at hO' hl'
      have hp := hacc.2.2.2 rfl
      have hle := hp.1
      have hj := hO' j (by simp)
      rw [origin_clearing w hj, List.append_nil, origin_uses w a (fun i hi => hO' i (by simp [hi])), List.length_replicate] at hle
      have : (filterCfg w).cs.sigmaFilterWindow = w := rfl
      rw [this] at hle
      rw [List.length_append, List.length_cons] at hl'
      omega
    obtain ⟨s', out, dbg, e1, e2, -⟩ := C120_none (filterClient hw) g [once n] h1 (note (1001 + n)) hno ht hnone
    exact ⟨s, outs, s', out, dbg, h1, e1, fun _ => e2, fun h => absurd h hn⟩

end Verif.Outdoor
