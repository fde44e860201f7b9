import Verif.Mixed.Lemmas

/-!
# C133: what a client answers that hears transmitters and satellites
-/

namespace Verif.Mixed

open Verif.Levels Verif.Nav Verif.Estim
open Verif.Knn (Result)
open Verif.Geo (XYPoint)

/-- What the state of the client holds after the measurements `ms`. -/
structure Held (lv : Level) (c : Cfg) (a b : ℝ) (g : Garbage) (ms : List Measurement) (s : State) : Prop where
  buffered : Buffered c.cs (windows [lv] c.cs ms) s.pre.buffer
  pending : ∀ h ∈ (windows [lv] c.cs ms).pending, Radio.Admissible [lv] c.cs h.data
  before : (windows [lv] c.cs ms).closed = none → s.level.history.isInitialized = false ∧ s.level.history.current = ""
  after : (windows [lv] c.cs ms).closed ≠ none → s.level.history.isInitialized = true ∧ s.level.history.current = lv.id ∧
    (stored lv c.cs a b g ms).zone ≠ none
  fix : HoldsFix lv .GNSS s.outdoor.last (stored lv c.cs a b g ms).fix
  zone : HoldsKept lv .INDOOR s.post.indoorPos s.post.indoorDev (stored lv c.cs a b g ms).zone
  sat : HoldsKept lv .GNSS s.post.outdoorPos s.post.outdoorDev (stored lv c.cs a b g ms).sat

theorem held_init (lv : Level) (c : Cfg) (hp : ZonesAndGps c.cs) (a b : ℝ) (g : Garbage) : Held lv c a b g [] (init c g) := by
  have hs := framed_span hp.toFramed
  constructor
  · constructor
    · rfl
    · exact fun _ => ⟨rfl, rfl⟩
    · intro t h; cases h
    · exact hs
  · intro h hh; cases hh
  · exact fun _ => ⟨rfl, rfl⟩
  · intro h; exact absurd rfl h
  · exact Outdoor.default_empty
  · exact Outdoor.default_empty
  · exact Outdoor.default_empty

/-- Without a recent signal no floor is in use. -/
theorem stale_level {ls : List Level} {c : Cfg} (hc : Client ls c) {g : Garbage} {ms : List Measurement} {s : State}
    (h : Traced ls c g ms s) {m : Measurement} (hf : ¬ Fresh ls c.cs ms m) {x : Sensed} (hx : sense c s m = .ok x) :
    timedOutLevel c x = "" := by
  obtain ⟨-, -, -, -, -, e3, e4, -⟩ := sense_parts hx
  have key : ∀ a e b, ms ++ [m] = a ++ e :: b → Heard ls c.cs e → (∀ e' ∈ b, ¬ Heard ls c.cs e') → x.pre.lastSignalTs = e.ts →
      timedOutLevel c x = "" := by
    intro a e b h1 h2 h3 h4
    have hs : x.pre.currentTs - x.pre.lastSignalTs ≥ c.noSignal := by
      rw [h4, e4, hc.parts.noSignal]
      by_contra hlt
      exact hf ⟨a, e, b, h1, h2, h3, by omega⟩
    unfold timedOutLevel
    dsimp only
    rw [if_pos hs]
    split_ifs <;> rfl
  by_cases hm : Heard ls c.cs m
  · exact key ms m [] rfl hm (by simp) (by rw [e3, (update_heard hc s.pre m).1 hm])
  · have e3' := e3
    rw [((update_heard hc s.pre m).2 hm).1] at e3'
    rcases h.heard with ⟨a, e, b, he, hh, hb, ht⟩ | ⟨hno, -, -⟩
    · refine key a e (b ++ [m]) (by rw [he]; simp) hh ?_ (by rw [e3', ht])
      intro e' he'
      rcases List.mem_append.mp he' with he' | he'
      · exact hb e' he'
      · rw [List.mem_singleton] at he'; rw [he']; exact hm
    · refine silent_level hc h (fun e he hh => ?_) hx
      rcases List.mem_append.mp he with he | he
      · exact absurd hh (hno e he)
      · rw [List.mem_singleton] at he
        exact absurd hh (by rw [he]; exact hm)

theorem covering_one {cs : CommonSettings} (ho : cs.useGpsOutsideMap = false) {lv : Level} {k : Call} {l : Level} :
    FirstCovering cs (collect [lv]) k l ↔ l = lv ∧ Box.Covers lv.geometry.boundingBox (fixOn k lv) := by
  unfold FirstCovering
  rw [collect_levels, ho]
  constructor
  · rintro ⟨p, q, e, h, -⟩
    have hl : l ∈ [lv] := by rw [e]; simp
    rw [List.mem_singleton] at hl
    subst hl
    exact ⟨rfl, by simpa using h⟩
  · rintro ⟨rfl, h⟩
    exact ⟨[], [], rfl, by simpa using h, by simp⟩

/-- The satellite place that is offered at a message. -/
theorem sense_sat {lv : Level} {c : Cfg} (hc : Client [lv] c) (hp : ZonesAndGps c.cs) {a b : ℝ} {g : Garbage} {ms : List Measurement}
    {s : State} (ht : Traced [lv] c g ms s) (hfix : HoldsFix lv .GNSS s.outdoor.last (stored lv c.cs a b g ms).fix) {m : Measurement}
    {x : Sensed} (hx : sense c s m = .ok x) :
    HoldsFix lv .GNSS x.outdoorPos (offered lv c.cs g (stored lv c.cs a b g ms) ms m) ∧
    HoldsFix lv .GNSS x.outdoor.last (stored lv c.cs a b g (ms ++ [m])).fix := by
  obtain ⟨-, -, -, -, -, -, -, -, h7⟩ := sense_parts hx
  rw [update_sensor, update_nmea, ht.sensor, ht.nmea, ← lastSensor_snoc, ← lastNmea_snoc, hc.parts.levels] at h7
  set k : Call := ⟨m.ts, lastSensor g.sensor (ms ++ [m]), lastNmea g.nmea (ms ++ [m]), s.flagIndoorPos⟩ with hk
  have h7' : outdoorPosition c.cs (collect [lv]) s.outdoor k.ts k.sensor k.nmea k.indoor = some (x.outdoorPos, x.outdoor) := h7
  obtain ⟨s1, s2⟩ := outdoor_step c.cs (collect [lv]) s.outdoor k _ _ h7'
  have hst : (stored lv c.cs a b g (ms ++ [m])).fix = (match seen lv c.cs g ms m with
      | none => (stored lv c.cs a b g ms).fix
      | some f => some f) := by
    rw [stored_snoc]
    unfold Store.after
    dsimp only
    split_ifs <;> rfl
  rw [hst]
  by_cases hf : AtFix g ms m
  · have hf' : IsFix k := hf
    have hoff : offered lv c.cs g (stored lv c.cs a b g ms) ms m = seen lv c.cs g ms m := by
      unfold offered; rw [if_pos hf]
    rw [hoff]
    by_cases hok : Box.Covers lv.geometry.boundingBox (fixPlace lv g ms m) ∧ EnoughSatellites c.cs g ms m
    · have hs : seen lv c.cs g ms m = some ⟨fixPlace lv g ms m,
          max (lastSensor g.sensor (ms ++ [m])).data.values.z c.cs.minGpsDeviation, m.ts⟩ := by
        unfold seen; rw [if_pos ⟨hf, hok⟩]
      obtain ⟨st2, e⟩ := C35_reported c.cs hp.sigma (collect [lv]) s.outdoor k hf' lv ((covering_one hp.outside).mpr ⟨rfl, hok.1⟩) hok.2
      rw [h7', Option.some.injEq, Prod.mk.injEq] at e
      have hh : Holds lv .GNSS ⟨fixPlace lv g ms m, max (lastSensor g.sensor (ms ++ [m])).data.values.z c.cs.minGpsDeviation, m.ts⟩
          (fixPosition c.cs k lv) := ⟨rfl, rfl, rfl, rfl, rfl, rfl, rfl⟩
      rw [hs]
      refine ⟨by rw [e.1]; exact hh, ?_⟩
      rcases s2 hf' with ⟨hd, -⟩ | ⟨l', -, -, -, hlast⟩
      · rw [e.1] at hd
        have := congrArg Position.isEmpty hd
        exact absurd this (by rw [Outdoor.default_empty]; exact Bool.false_ne_true)
      · rw [hlast, e.1]; exact hh
    · have hs : seen lv c.cs g ms m = none := by
        unfold seen; rw [if_neg (fun h => hok h.2)]
      rw [hs]
      rcases s2 hf' with ⟨hd, hlast⟩ | ⟨l, hl, hsat, -, -⟩
      · exact ⟨by rw [hd]; exact Outdoor.default_empty, by rw [hlast]; exact hfix⟩
      · exact absurd ⟨((covering_one hp.outside).mp hl).2, hsat⟩ hok
  · have hf' : ¬ IsFix k := hf
    have hs : seen lv c.cs g ms m = none := by
      unfold seen; rw [if_neg (fun h => hf h.1)]
    obtain ⟨e1, e2⟩ := s1 hf'
    rw [hs]
    refine ⟨?_, by rw [e1]; exact hfix⟩
    rw [e2]
    unfold offered
    rw [if_neg hf]
    cases hfx : (stored lv c.cs a b g ms).fix with
    | none =>
      rw [hfx] at hfix
      dsimp only
      split_ifs
      · exact Outdoor.default_empty
      · exact hfix
    | some f =>
      rw [hfx] at hfix
      have hfix' : Holds lv .GNSS f s.outdoor.last := hfix
      dsimp only
      rw [hfix'.ts]
      by_cases hage : ((m.ts - f.time : Int) : ℝ) / 1000 ≤ c.cs.gpsValidTimeWindowSec
      · rw [if_pos hage, if_neg (not_lt.mpr hage)]
        exact hfix'
      · rw [if_neg hage, if_pos (lt_of_not_ge hage)]
        exact Outdoor.default_empty

/-- What the client holds after a message: while the floor is in use, and else. -/
structure Told (lv : Level) (c : Cfg) (a b : ℝ) (g : Garbage) (ms : List Measurement) (m : Measurement) (s s' : State)
    (st : NavigationStatus) : Prop where
  shown : InUse lv c.cs ms m → ∀ k, (stored lv c.cs a b g (ms ++ [m])).zone = some k →
    let ch := choose c.cs (Closes [lv] c.cs ms m) m.ts k (stored lv c.cs a b g (ms ++ [m])).sat
    (Box.Covers lv.geometry.boundingBox ch.place ∧ m.ts - ch.time < ⌊1000 * c.cs.deadReckoningTime⌋ →
      s'.position.isEmpty = false ∧ s'.position.levelId = lv.id ∧ s'.position.provider = ch.provider ∧
      s'.position.toXY = ⟨downToCm ch.place.x, downToCm ch.place.y⟩ ∧ s'.position.deviationM = k.radius) ∧
    (¬ (Box.Covers lv.geometry.boundingBox ch.place ∧ m.ts - ch.time < ⌊1000 * c.cs.deadReckoningTime⌋) →
      s'.position.isEmpty = true ∧ (Closes [lv] c.cs ms m → st = .OK) ∧ (¬ Closes [lv] c.cs ms m → st = .NO_SOLUTION))
  away : ¬ InUse lv c.cs ms m → ∀ f, offered lv c.cs g (stored lv c.cs a b g ms) ms m = some f → Holds lv .GNSS f s'.position
  still : ¬ InUse lv c.cs ms m → offered lv c.cs g (stored lv c.cs a b g ms) ms m = none → s'.position = s.position ∧ st = .NO_LEVEL

theorem held_step {lv : Level} {c : Cfg} (hc : Client [lv] c) (hp : ZonesAndGps c.cs) {a b : ℝ} (hlaw : ZoneLaw c lv a b) {g : Garbage}
    {ms : List Measurement} {s : State} (ht : Traced [lv] c g ms s) (hz : Held lv c a b g ms s) {m : Measurement} (hts : 0 < m.ts)
    {s' : State} {out : Output} {x : Sensed} {l : Located} (hst : Stepped [lv] c s m s' out x l) :
    Held lv c a b g (ms ++ [m]) s' ∧ Told lv c a b g ms m s s' l.status := by
  obtain ⟨-, h1, h2, -, -, -, h7, ⟨d, h8, h9⟩, -⟩ := sense_parts hst.sense
  obtain ⟨f1, -, f3, f4⟩ := locate_frame hst.locate
  obtain ⟨o1, o2⟩ := sense_sat hc hp ht hz.fix hst.sense
  have hid : lv.id ≠ "" := hc.map.named lv (by simp)
  obtain ⟨hb, hcase⟩ := framed_radio hc hp.toFramed hz.buffered hts h1
  rw [← windows_snoc, ← h2, ← f1, ← hst.state] at hb
  rw [← windows_snoc] at hcase
  rw [hp.barometer] at h9
  unfold LevelEst.calculateLevel at h9
  simp only [Bool.false_eq_true, if_false, Prod.mk.injEq] at h9
  obtain ⟨g1, g2⟩ := h9
  have g2' : s'.level.history = (LevelEst.detectLevelUsingHistory s.level.history d).2 := by
    rw [hst.state, f3, ← g2]
  have hfix' : HoldsFix lv .GNSS s'.outdoor.last (stored lv c.cs a b g (ms ++ [m])).fix := by
    rw [hst.state, f4]; exact o2
  -- the branch without a level
  have hnow : timedOutLevel c x = "" → ¬ InUse lv c.cs ms m →
      (HoldsKept lv .INDOOR s'.post.indoorPos s'.post.indoorDev (stored lv c.cs a b g (ms ++ [m])).zone ∧
       HoldsKept lv .GNSS s'.post.outdoorPos s'.post.outdoorDev (stored lv c.cs a b g (ms ++ [m])).sat ∧
       (stored lv c.cs a b g (ms ++ [m])).zone = (stored lv c.cs a b g ms).zone) ∧ Told lv c a b g ms m s s' l.status := by
    intro h hn
    obtain ⟨-, a2, -, -, a5⟩ := locate_nowhere hc hst.locate h
    have e1 : (stored lv c.cs a b g (ms ++ [m])).zone = (stored lv c.cs a b g ms).zone ∧
        (stored lv c.cs a b g (ms ++ [m])).sat = (stored lv c.cs a b g ms).sat := by
      rw [stored_snoc]
      unfold Store.after
      dsimp only
      rw [if_neg hn]
      exact ⟨rfl, rfl⟩
    refine ⟨?_, ⟨fun h => absurd h hn, fun _ f hf => ?_, fun _ hf => ?_⟩⟩
    · rw [e1.1, e1.2, hst.state, a2]
      exact ⟨hz.zone, hz.sat, rfl⟩
    · rw [hf] at o1
      have o1' : Holds lv .GNSS f x.outdoorPos := o1
      rcases a5 with ⟨-, e, -⟩ | ⟨e, -⟩
      · rw [hst.state, e]; exact o1'
      · rw [o1'.isEmpty] at e; cases e
    · rw [hf] at o1
      have o1' : x.outdoorPos.isEmpty = true := o1
      rcases a5 with ⟨e, -⟩ | ⟨-, e, e'⟩
      · rw [o1'] at e; cases e
      · exact ⟨by rw [hst.state]; exact e, e'⟩
  -- the branch for the level
  have hat : timedOutLevel c x = lv.id → InUse lv c.cs ms m → ∀ i st fi,
      indoorPosition c s.indoorPos lv x.pre.currentTs x.radio = .ok (st, i, s.indoorPos) →
      HoldsFix lv .INDOOR i fi → radioFix lv c.cs a b ms m = fi → ((stored lv c.cs a b g ms).zone = none → fi ≠ none) →
      (Closes [lv] c.cs ms m → fi ≠ none ∧ st = .OK) → (¬ Closes [lv] c.cs ms m → fi = none ∧ st = .NO_SOLUTION) →
      (HoldsKept lv .INDOOR s'.post.indoorPos s'.post.indoorDev (stored lv c.cs a b g (ms ++ [m])).zone ∧
       HoldsKept lv .GNSS s'.post.outdoorPos s'.post.outdoorDev (stored lv c.cs a b g (ms ++ [m])).sat ∧
       (stored lv c.cs a b g (ms ++ [m])).zone ≠ none) ∧ Told lv c a b g ms m s s' l.status := by
    intro h hin i st fi hi hfi hrf hsome hcl1 hcl2
    obtain ⟨lv', i', p, ph, ha⟩ := locate_level hc ht.inv hst.sensed ⟨lv, by simp, h.symm⟩
    have : lv' = lv := by simpa using ha.mem
    subst this
    have hi' := ha.indoor
    rw [hi] at hi'
    cases hi'
    have hl := ha.located
    rw [hst.locate] at hl
    have es : s'.position = p.1 ∧ s'.post = p.2 ∧ l.status = st := by
      rw [hst.state]
      cases hl
      exact ⟨rfl, rfl, rfl⟩
    have e1 : (stored lv' c.cs a b g (ms ++ [m])).zone = store c.cs (stored lv' c.cs a b g ms).zone fi ∧
        (stored lv' c.cs a b g (ms ++ [m])).sat = store c.cs (stored lv' c.cs a b g ms).sat (offered lv' c.cs g (stored lv' c.cs a b g ms) ms m) := by
      rw [stored_snoc]
      unfold Store.after
      dsimp only
      rw [if_pos hin, hrf]
      exact ⟨rfl, rfl⟩
    obtain ⟨k1, k2⟩ := fused_kept c.cs hz.zone hz.sat hfi o1 x.pre.currentTs st
    obtain ⟨p1, p2, p3, p4⟩ := processed_kept hp.toFramed hp.smoothing _ _ _ _ _ _ ha.processed
    obtain ⟨q1, q2, q3⟩ := framed_processed hp.toFramed hp.smoothing _ _ _ _ _ _ ha.processed
    rw [← e1.1] at k1
    rw [← e1.2] at k2
    refine ⟨⟨?_, ?_, ?_⟩, ⟨fun _ k hk => ?_, fun hn => absurd hin hn, fun hn => absurd hin hn⟩⟩
    · rw [es.2.1, p1, p2]; exact k1
    · rw [es.2.1, p3, p4]; exact k2
    · rw [e1.1]
      cases hfz : fi with
      | some f => simp [store]
      | none =>
        intro h0
        exact hsome h0 hfz
    · intro ch
      rw [hk] at k1
      have hch : Chosen lv' ch (Post.fusePositions c.cs s.post x.pre.currentTs i x.outdoorPos st).1 := by
        have := fused_choice hp.gps hp.instant (i := i) (q := x.outdoorPos) (st := st) (closes := Closes [lv'] c.cs ms m) k1 k2
          (fun hcl => by
            obtain ⟨n1, n2⟩ := hcl1 hcl
            refine ⟨?_, n2⟩
            obtain ⟨f, hf⟩ := Option.ne_none_iff_exists'.mp n1
            rw [hf] at hfi
            have hfi' : Holds lv' .INDOOR f i := hfi
            simp only [Post.fusePositions]
            unfold Post.fillOutdoor Post.fillIndoor
            rw [hfi'.isEmpty]
            split_ifs <;> first | rfl | contradiction)
          (fun hcl => by
            have := (hcl2 hcl).1
            rw [this] at hfi
            exact hfi) x.pre.currentTs
        rw [h7] at this ⊢
        exact this
      have k1' : Holds lv' .INDOOR k.toFix (Post.fusePositions c.cs s.post x.pre.currentTs i x.outdoorPos st).2.indoorPos := k1.1
      obtain ⟨r1, r2⟩ := q3 hch.isEmpty
      have hxy : (Post.fusePositions c.cs s.post x.pre.currentTs i x.outdoorPos st).1.toXY = ch.place := by
        simp [Position.toXY, hch.x, hch.y]
      rw [hxy, hch.ts, h7] at r1 r2
      rw [h7] at hch k1'
      rw [es.1]
      refine ⟨fun hin => ?_, fun hbad => ?_⟩
      · rw [r1 hin]
        refine ⟨hch.isEmpty, hch.levelId, hch.provider, ?_, k1'.radius⟩
        simp [Position.toXY, hch.x, hch.y]
      · rw [r2 hbad]
        exact ⟨rfl, fun h => by rw [es.2.2]; exact (hcl1 h).2, fun h => by rw [es.2.2]; exact (hcl2 h).2⟩
  rcases hcase with ⟨hr, hncl, hcl, hpe, hpn⟩ | ⟨hclose, dd, win, hd, had, hwin, hcl, hpe, hho, -⟩
  · -- nothing is handed out
    have hncl' : ¬ Closes [lv] c.cs ms m := hncl
    rw [hr, detect_nothing hc] at h8
    cases h8
    have e0 : LevelEst.detectLevelUsingHistory s.level.history "" = (s.level.history.current, s.level.history) := by
      simp [LevelEst.detectLevelUsingHistory]
    rw [e0] at g1 g2'
    dsimp only at g1 g2'
    have hpend : ∀ h ∈ (windows [lv] c.cs (ms ++ [m])).pending, Radio.Admissible [lv] c.cs h.data := by
      by_cases hh : Heard [lv] c.cs m
      · rw [hpe hh]
        obtain ⟨dd, hd, ha⟩ := hh
        intro h hm
        rcases List.mem_append.mp hm with hm | hm
        · exact hz.pending h hm
        · rw [List.mem_singleton] at hm
          rw [hm, hd]
          exact ha
      · rw [hpn hh]; exact hz.pending
    have hbefore : (windows [lv] c.cs (ms ++ [m])).closed = none → s'.level.history.isInitialized = false ∧ s'.level.history.current = "" := by
      intro hnone
      rw [hcl] at hnone
      rw [g2']
      exact hz.before hnone
    by_cases hin : InUse lv c.cs ms m
    · have hne := hin.2
      rw [hcl] at hne
      obtain ⟨z1, z2, z3⟩ := hz.after hne
      have hlv : timedOutLevel c x = lv.id := by
        rw [fresh_level hc hp.noAction ht hin.1 hst.sense, ← g1, z2]
      have hrf : radioFix lv c.cs a b ms m = none := by unfold radioFix; rw [if_neg hncl']
      obtain ⟨⟨t1, t2, t3⟩, t4⟩ := hat hlv hin Position.default .NO_SOLUTION none (by rw [hr]; exact handed_nothing hc hp.toByZones _ _)
        Outdoor.default_empty hrf (fun h => absurd h z3) (fun h => absurd h hncl') (fun _ => ⟨rfl, rfl⟩)
      exact ⟨⟨hb, hpend, hbefore, fun _ => by rw [g2']; exact ⟨z1, z2, t3⟩, hfix', t1, t2⟩, t4⟩
    · have h0 : timedOutLevel c x = "" := by
        by_cases hf : Fresh [lv] c.cs ms m
        · have hnone : (windows [lv] c.cs (ms ++ [m])).closed = none := by
            by_contra hne
            exact hin ⟨hf, hne⟩
          rw [hcl] at hnone
          rw [fresh_level hc hp.noAction ht hf hst.sense, ← g1]
          exact (hz.before hnone).2
        · exact stale_level hc ht hf hst.sense
      obtain ⟨⟨t1, t2, t3⟩, t4⟩ := hnow h0 hin
      refine ⟨⟨hb, hpend, hbefore, fun hne => ?_, hfix', t1, t2⟩, t4⟩
      rw [hcl] at hne
      obtain ⟨z1, z2, z3⟩ := hz.after hne
      rw [g2', t3]
      exact ⟨z1, z2, z3⟩
  · -- a window is closed
    have hheard : Heard [lv] c.cs m := ⟨dd, hd, had⟩
    have hcloses : Closes [lv] c.cs ms m := ⟨hheard, hclose⟩
    have hadm : ∀ h ∈ win, Radio.Admissible [lv] c.cs h.data := by
      intro h hm
      rw [hwin] at hm
      rcases List.mem_append.mp hm with hm | hm
      · exact hz.pending h hm
      · rw [List.mem_singleton] at hm
        rw [hm]; exact had
    have hne : win ≠ [] := by rw [hwin]; simp
    rw [handed_level hc hp.toByZones hho hne hadm] at h8
    cases h8
    obtain ⟨e1, e2, e3⟩ := history_same (h := s.level.history) hid (by
      intro hi
      by_cases hw : (windows [lv] c.cs ms).closed = none
      · rw [(hz.before hw).1] at hi; cases hi
      · exact (hz.after hw).2.1)
    have hf : Fresh [lv] c.cs ms m :=
      ⟨ms, m, [], rfl, hheard, by simp, by have := hp.noSignal; omega⟩
    have hlv : timedOutLevel c x = lv.id := by
      rw [fresh_level hc hp.noAction ht hf hst.sense, ← g1, e1]
    obtain ⟨q, id, t, hq, hzone⟩ := handed_zone hc hp.toByZones hho hne hadm s.indoorPos x.pre.currentTs
    rw [h7] at hzone
    have hin : InUse lv c.cs ms m := ⟨hf, by rw [hcl]; simp⟩
    have hrf : radioFix lv c.cs a b ms m = some ⟨⟨t.point.x, t.point.y⟩, Real.exp ((a - meanRssi win id) / (2 * b)) + 1, m.ts⟩ := by
      unfold radioFix
      rw [if_pos hcloses, hcl, Option.bind_some]
      exact zoneFix_eq hzone.strongest hzone.tx a b m.ts
    obtain ⟨A, B, l1, l2, l3, l4⟩ := hlaw
    obtain ⟨⟨t1, t2, t3⟩, t4⟩ := hat hlv hin q .OK (some ⟨⟨t.point.x, t.point.y⟩, Real.exp ((a - meanRssi win id) / (2 * b)) + 1, m.ts⟩) hq
      (show Holds lv .INDOOR ⟨⟨t.point.x, t.point.y⟩, Real.exp ((a - meanRssi win id) / (2 * b)) + 1, m.ts⟩ q from
        ⟨hzone.x, hzone.y, hzone.levelId, (hzone.formula A B a b l1 l2 l3 l4).2, hzone.ts, hzone.isEmpty, hzone.provider⟩)
      hrf (fun _ => by simp) (fun _ => ⟨by simp, rfl⟩) (fun h => absurd hcloses h)
    refine ⟨⟨hb, (by rw [hpe]; intro h hm; cases hm), ?_, ?_, hfix', t1, t2⟩, t4⟩
    · intro hnone; rw [hcl] at hnone; cases hnone
    · intro _
      rw [g2']
      exact ⟨e3, e2, t3⟩

theorem held_runs {lv : Level} {c : Cfg} (hc : Client [lv] c) (hp : ZonesAndGps c.cs) {a b : ℝ} (hlaw : ZoneLaw c lv a b) (g : Garbage)
    (ms : List Measurement) (hts : ∀ m ∈ ms, 0 < m.ts) {s : State} {outs : List (Output × DebugState)}
    (h : runs c (init c g) ms = .ok (s, outs)) : Held lv c a b g ms s := by
  induction ms using List.reverseRecOn generalizing s outs with
  | nil => cases h; exact held_init lv c hp a b g
  | append_singleton ms m ih =>
    obtain ⟨s1, outs1, r, h1, h2, -⟩ := runs_snoc h
    have ht := traced_runs hc g ms h1
    obtain ⟨-, x, l, hst, -⟩ := traced_step hc ht h2
    exact (held_step hc hp hlaw ht (ih (fun m hm => hts m (by simp [hm])) h1) (hts m (by simp)) hst).1

/-- **C133.** A client with one floor that locates by zones and by satellites, after any history of measurements with positive
times, gets a measurement while the floor is in use (a window of signals was closed, and the last signal is recent).  The last
zone is in store, and the answer shows the choice between it and the last satellite place: OK, on the floor, rounded down to
centimetres, if it lies in the bounding box of the floor and is younger than the dead reckoning time.  The radius is always
that of the zone.  Otherwise the answer has no place. -/
theorem C133_answer {lv : Level} {c : Cfg} (hc : Client [lv] c) (hp : ZonesAndGps c.cs) {a b : ℝ} (hlaw : ZoneLaw c lv a b) (g : Garbage)
    (batches : List (List Measurement)) {s : State} {outs : List (Output × DebugState)}
    (h : navigateAll c (init c g) batches = .ok (s, outs)) (m : Measurement) (hts : ∀ e ∈ taken batches ++ [m], 0 < e.ts)
    (hin : InUse lv c.cs (taken batches) m) :
    ∃ s' out dbg k, navigate c s [m] = .ok (s', [(out, dbg)]) ∧ (stored lv c.cs a b g (taken batches ++ [m])).zone = some k ∧
      let ch := choose c.cs (Closes [lv] c.cs (taken batches) m) m.ts k (stored lv c.cs a b g (taken batches ++ [m])).sat
      (Box.Covers lv.geometry.boundingBox ch.place ∧ m.ts - ch.time < ⌊1000 * c.cs.deadReckoningTime⌋ →
        out.status = .OK ∧ out.posLevel = lv.id ∧ out.provider = some ch.provider ∧ out.posR = some k.radius ∧
        (⟨out.posLatitude, out.posLongitude⟩ : Geo.GeoPoint) =
          Geo.localToGps ⟨downToCm ch.place.x, downToCm ch.place.y⟩ lv.bindingPoint) ∧
      (¬ (Box.Covers lv.geometry.boundingBox ch.place ∧ m.ts - ch.time < ⌊1000 * c.cs.deadReckoningTime⌋) →
        Blank out ∧ (Closes [lv] c.cs (taken batches) m → out.status = .NAVIGATION_ERROR) ∧
        (¬ Closes [lv] c.cs (taken batches) m → out.status = .NO_SOLUTION)) := by
  have ht := history_traced hc h
  rw [navigateAll_eq] at h
  have hz := held_runs hc hp hlaw g _ (fun e he => hts e (by simp [he])) h
  obtain ⟨s', out, dbg, x, l, h1, hst, -⟩ := one_parts hc ht.inv m
  obtain ⟨hz', han⟩ := held_step hc hp hlaw ht hz (hts m (by simp)) hst
  obtain ⟨k, hk⟩ := Option.ne_none_iff_exists'.mp (hz'.after hin.2).2.2
  obtain ⟨a1, a2⟩ := han.shown hin k hk
  obtain ⟨hsh, -, herr⟩ := stepped_shows hc hst
  refine ⟨s', out, dbg, k, h1, hk, fun hbox => ?_, fun hbad => ?_⟩
  · obtain ⟨r1, r2, r3, r4, r5⟩ := a1 hbox
    rcases hsh with ⟨he, -⟩ | ⟨-, hok, lv', hlv', hid, e1, e2, e3, e4, e5⟩
    · rw [r1] at he; cases he
    have : lv' = lv := by simpa using hlv'
    subst this
    exact ⟨hok, by rw [e1, r2], by rw [e5, r3], by rw [e4, r5], by rw [e2, e3, r4]⟩
  · obtain ⟨hemp, hs1, hs2⟩ := a2 hbad
    rcases hsh with ⟨-, -, hb⟩ | ⟨he, -⟩
    swap
    · rw [hemp] at he; cases he
    have hst' := herr hemp
    refine ⟨hb, fun h => ?_, fun h => ?_⟩
    · rw [hst', hs1 h]; rfl
    · rw [hst', hs2 h]; rfl

/-- **C133.** While the floor is not in use and a satellite place is offered, the answer shows it, not rounded, with the radius
of the receiver. -/
theorem C133_away {lv : Level} {c : Cfg} (hc : Client [lv] c) (hp : ZonesAndGps c.cs) {a b : ℝ} (hlaw : ZoneLaw c lv a b) (g : Garbage)
    (batches : List (List Measurement)) {s : State} {outs : List (Output × DebugState)}
    (h : navigateAll c (init c g) batches = .ok (s, outs)) (m : Measurement) (hts : ∀ e ∈ taken batches ++ [m], 0 < e.ts)
    (hn : ¬ InUse lv c.cs (taken batches) m) {f : Fix}
    (hf : offered lv c.cs g (stored lv c.cs a b g (taken batches)) (taken batches) m = some f) :
    ∃ s' out dbg, navigate c s [m] = .ok (s', [(out, dbg)]) ∧ out.status = .OK ∧ out.posLevel = lv.id ∧
      out.provider = some .GNSS ∧ out.posR = some f.radius ∧
      (⟨out.posLatitude, out.posLongitude⟩ : Geo.GeoPoint) = Geo.localToGps f.place lv.bindingPoint := by
  have ht := history_traced hc h
  rw [navigateAll_eq] at h
  have hz := held_runs hc hp hlaw g _ (fun e he => hts e (by simp [he])) h
  obtain ⟨s', out, dbg, x, l, h1, hst, -⟩ := one_parts hc ht.inv m
  obtain ⟨hz', han⟩ := held_step hc hp hlaw ht hz (hts m (by simp)) hst
  have hh := han.away hn f hf
  refine ⟨s', out, dbg, h1, ?_⟩
  rcases (stepped_shows hc hst).1 with ⟨he, -⟩ | ⟨-, hok, lv', hlv', hid, e1, e2, e3, e4, e5⟩
  · rw [hh.isEmpty] at he; cases he
  have : lv' = lv := by simpa using hlv'
  subst this
  refine ⟨hok, by rw [e1, hh.levelId], by rw [e5, hh.provider], by rw [e4, hh.radius], ?_⟩
  have hxy : s'.position.toXY = f.place := by simp [Position.toXY, hh.x, hh.y]
  rw [e2, e3, hxy]

/-- **C133.** While the floor is not in use and no satellite place is offered, the client repeats its last answer, whatever its
age; if that had no place, the status is NO_LEVEL. -/
theorem C133_still {lv : Level} {c : Cfg} (hc : Client [lv] c) (hp : ZonesAndGps c.cs) {a b : ℝ} (hlaw : ZoneLaw c lv a b) (g : Garbage)
    (batches : List (List Measurement)) {s : State} {outs : List (Output × DebugState)}
    (h : navigateAll c (init c g) batches = .ok (s, outs)) (m : Measurement) (hts : ∀ e ∈ taken batches ++ [m], 0 < e.ts)
    (hn : ¬ InUse lv c.cs (taken batches) m)
    (hf : offered lv c.cs g (stored lv c.cs a b g (taken batches)) (taken batches) m = none) :
    ∃ s' out dbg, navigate c s [m] = .ok (s', [(out, dbg)]) ∧
      ∀ o ∈ outs.getLast?, (o.1.status = .OK → SamePlace o.1 out) ∧ (o.1.status ≠ .OK → out.status = .NO_LEVEL ∧ Blank out) := by
  have ht := history_traced hc h
  rw [navigateAll_eq] at h
  have hz := held_runs hc hp hlaw g _ (fun e he => hts e (by simp [he])) h
  obtain ⟨s', out, dbg, x, l, h1, hst, -⟩ := one_parts hc ht.inv m
  obtain ⟨hz', han⟩ := held_step hc hp hlaw ht hz (hts m (by simp)) hst
  obtain ⟨e1, e2⟩ := han.still hn hf
  refine ⟨s', out, dbg, h1, fun o ho => ?_⟩
  have hlast := last_shows hc (inv_init hc g) _ h ho
  obtain ⟨hsh, -, herr⟩ := stepped_shows hc hst
  rw [e1] at hsh herr
  constructor
  · intro hok
    rcases hlast with ⟨-, hne, -⟩ | hlast
    · exact absurd hok hne
    · exact shows_same hc.map.nodup (Or.inr hlast) hsh hlast.1
  · intro hne
    rcases hlast with ⟨he, -⟩ | ⟨-, hok, -⟩
    · refine ⟨by rw [herr he, e2]; rfl, ?_⟩
      rcases hsh with ⟨-, -, hb⟩ | ⟨he', -⟩
      · exact hb
      · rw [he] at he'; cases he'
    · exact absurd hok hne

end Verif.Mixed
