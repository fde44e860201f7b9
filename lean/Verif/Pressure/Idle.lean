import Verif.Pressure.Props

/-!
# C127: without pressures the barometer setting makes no difference
-/

namespace Verif.Pressure

open Verif.Levels Verif.Nav Verif.Floors
open Verif.Knn (Result)

/-- The same client with the barometer switched off. -/
def withoutBarometer (c : Cfg) : Cfg := { c with cs := { c.cs with useBarometer := false } }

theorem without_client {ls : List Level} {c : Cfg} (hc : Client ls c) : Client ls (withoutBarometer c) where
  map := hc.map
  settings := ⟨hc.settings.1, hc.settings.2⟩
  sort := hc.sort
  radioSorts := hc.radioSorts
  built := by
    obtain ⟨lss, h⟩ := hc.built
    refine ⟨lss, ?_⟩
    unfold mkCfg at h ⊢
    obtain ⟨i, h1, h2⟩ := Option.map_eq_some_iff.mp h
    refine Option.map_eq_some_iff.mpr ⟨i, ?_, ?_⟩
    · exact h1
    · rw [← h2]
      rfl

/-- A state with another barometer. -/
def withBaro (s : State) (b : LevelEst.Barometer) : State := { s with level := ⟨s.level.history, b⟩ }

theorem outdoor_without (cs : CommonSettings) (ls : LevelCollector) (st : Estim.OutdoorState) (ts : Int) (sen : SensorMeasurement)
    (nm : NmeaMeasurement) (f : Bool) :
    Estim.outdoorPosition { cs with useBarometer := false } ls st ts sen nm f = Estim.outdoorPosition cs ls st ts sen nm f := by
  have h : ∀ (ls : List Level) st g sats,
      Estim.outdoorLevels { cs with useBarometer := false } st g sats ls = Estim.outdoorLevels cs st g sats ls := by
    intro ls
    induction ls with
    | nil => intro st g sats; rfl
    | cons l ls ih =>
      intro st g sats
      unfold Estim.outdoorLevels
      rw [ih]
  unfold Estim.outdoorPosition
  simp only [h]
  rfl

theorem andThen_of {α β : Type} (a : α) (f : α → Result β) : andThen (.ok a) f = f a := rfl

theorem sense_without {c : Cfg} {s : State} {m : Measurement} (b : LevelEst.Barometer)
    (h : ∀ d, (LevelEst.calculateLevel c.cs.useBarometer s.level d (Radio.updateMeasurements c.pre s.pre m).sensor).1 =
      (LevelEst.detectLevelUsingHistory s.level.history d).1) :
    sense (withoutBarometer c) (withBaro s b) m =
      andThen (sense c s m) (fun x => .ok { x with level := ⟨x.level.history, b⟩ }) := by
  have hh : ∀ d k, (LevelEst.calculateLevel c.cs.useBarometer s.level d k).2.history =
      (LevelEst.detectLevelUsingHistory s.level.history d).2 := by
    intro d k
    unfold LevelEst.calculateLevel
    split_ifs <;> rfl
  unfold sense
  have e1 : (withoutBarometer c).pre = c.pre := rfl
  have e2 : (withoutBarometer c).fusion = c.fusion := rfl
  have e3 : (withoutBarometer c).env = c.env := rfl
  have e4 : (withBaro s b).pre = s.pre := rfl
  have e5 : (withBaro s b).fusion = s.fusion := rfl
  have e6 : detectLevel (withoutBarometer c) = detectLevel c := rfl
  have e7 : ∀ ts sen nm, Estim.outdoorPosition (withoutBarometer c).cs (withoutBarometer c).levels (withBaro s b).outdoor ts sen nm
      (withBaro s b).flagIndoorPos = Estim.outdoorPosition c.cs c.levels s.outdoor ts sen nm s.flagIndoorPos :=
    fun ts sen nm => outdoor_without c.cs c.levels s.outdoor ts sen nm s.flagIndoorPos
  dsimp only
  rw [e1, e2, e3, e4, e5, e6]
  simp only [e7, andThen_assoc]
  congr 1
  funext f
  congr 1
  funext radio
  congr 1
  funext d
  congr 1
  funext o
  have e8 : LevelEst.calculateLevel (withoutBarometer c).cs.useBarometer (withBaro s b).level d (Radio.updateMeasurements c.pre s.pre m).sensor =
      ((LevelEst.detectLevelUsingHistory s.level.history d).1, ⟨(LevelEst.detectLevelUsingHistory s.level.history d).2, b⟩) := rfl
  rw [e8, ← h d]
  change Result.ok _ = Result.ok _
  rw [hh d]

theorem locate_without (c : Cfg) (s : State) (x : Sensed) (b : LevelEst.Barometer) :
    locate (withoutBarometer c) (withBaro s b) { x with level := ⟨x.level.history, b⟩ } =
      andThen (locate c s x) (fun l => .ok { l with state := withBaro l.state b }) := by
  unfold locate
  have e1 : timedOutLevel (withoutBarometer c) { x with level := ⟨x.level.history, b⟩ } = timedOutLevel c x := rfl
  have e2 : (withoutBarometer c).levels = c.levels := rfl
  dsimp only
  rw [e1, e2]
  split_ifs
  · rw [andThen_assoc]
    congr 1
    funext lv
    unfold locateIndoor
    have i1 : indoorPosition (withoutBarometer c) = indoorPosition c := rfl
    have i2 : ∀ i, Post.fusePositions (withoutBarometer c).cs (withBaro s b).post x.pre.currentTs i.2.1 x.outdoorPos i.1 =
      Post.fusePositions c.cs s.post x.pre.currentTs (i : NavigationStatus × Position × Position).2.1 x.outdoorPos i.1 := fun _ => rfl
    have i3 : ∀ q f, Post.getProcessedPosition (withoutBarometer c).cs ((withoutBarometer c).env.allowed lv) q f x.pre.currentTs
        x.info.lastMotionTs lv = Post.getProcessedPosition c.cs (c.env.allowed lv) q f x.pre.currentTs x.info.lastMotionTs lv := fun _ _ => rfl
    dsimp only
    rw [i1]
    simp only [i2, i3, andThen_assoc]
    rfl
  · rfl
  · rfl

theorem report_without (c : Cfg) (x : Sensed) (l : Located) (b : LevelEst.Barometer) :
    report (withoutBarometer c) { x with level := ⟨x.level.history, b⟩ } { l with state := withBaro l.state b } = report c x l := rfl

theorem step_without {c : Cfg} {s : State} {m : Measurement} (b : LevelEst.Barometer)
    (h : ∀ d, (LevelEst.calculateLevel c.cs.useBarometer s.level d (Radio.updateMeasurements c.pre s.pre m).sensor).1 =
      (LevelEst.detectLevelUsingHistory s.level.history d).1) :
    step (withoutBarometer c) (withBaro s b) m = andThen (step c s m) (fun r => .ok (withBaro r.1 b, r.2)) := by
  unfold step
  rw [sense_without b h]
  cases sense c s m with
  | throws => rfl
  | undefined => rfl
  | ok x =>
    simp only [andThen_of]
    rw [locate_without]
    cases locate c s x with
    | throws => rfl
    | undefined => rfl
    | ok l =>
      simp only [andThen_of]
      rw [report_without]
      cases report c x l <;> rfl

/-- What is known about the barometer object while nothing is asked of the floors. -/
def Fed (g : Garbage) (ms : List Measurement) (b : LevelEst.Barometer) : Prop :=
  ∃ calls, b = LevelEst.runBaro calls ∧ calls.length = ms.length ∧ LevelEst.pressures calls = counted g ms

theorem fed_step {g : Garbage} {ms : List Measurement} {b : LevelEst.Barometer} (hb : Fed g ms b) (m : Measurement) (l : String) :
    let r := LevelEst.checkLevelChange b l (lastSensor g.sensor (ms ++ [m]))
    Fed g (ms ++ [m]) r.2 ∧ ((counted g (ms ++ [m])).length < 201 → r.1 = l) := by
  intro r
  obtain ⟨calls, rfl, h2, h3⟩ := hb
  set c : String × SensorMeasurement := (l, lastSensor g.sensor (ms ++ [m])) with hc
  have hpr : LevelEst.pressures (calls ++ [c]) = counted g (ms ++ [m]) := by
    by_cases hne : calls = []
    · subst hne
      have : ms = [] := List.length_eq_zero_iff.mp h2.symm
      subst this
      rw [counted_small g _ (by simp)]
      rfl
    · have hms : ms ≠ [] := by
        intro h; rw [h] at h2; exact hne (List.length_eq_zero_iff.mp h2)
      rw [LevelEst.pressures_snoc _ _ hne, counted_snoc g ms m hms, h3, pressureSeen_eq]
      congr 1
      split_ifs <;> rfl
  refine ⟨⟨calls ++ [c], by rw [LevelEst.runBaro_snoc], by simp [h2], hpr⟩, fun hlen => ?_⟩
  change LevelEst.baroOut calls c = c.1
  cases calls using List.reverseRecOn with
  | nil => rfl
  | append_singleton past c' _ =>
    by_cases hne : past = []
    · subst hne
      exact LevelEst.second_call c' c
    · have e : past ++ [c', c] = past ++ [c'] ++ [c] := by simp
      have k1 := (LevelEst.C26_hold past hne c' c).1
      rw [e, hpr] at k1
      exact k1 hlen

theorem counted_grows (g : Garbage) (a b : List Measurement) : (counted g a).length ≤ (counted g (a ++ b)).length := by
  induction b using List.reverseRecOn with
  | nil => simp
  | append_singleton b m ih =>
    rw [← List.append_assoc]
    by_cases h : a ++ b = []
    · have ha : a = [] := (List.append_eq_nil_iff.mp h).1
      subst ha
      rw [counted_small g [] (by simp)]
      simp
    · rw [counted_snoc g _ m h, List.length_append]
      omega

theorem without_runs {ls : List Level} {c : Cfg} (hc : Client ls c) (hu : c.cs.useBarometer = true) (g : Garbage) (ms : List Measurement)
    (hlen : (counted g ms).length < 201) {s : State} {outs : List (Output × DebugState)} (h : runs c (init c g) ms = .ok (s, outs)) :
    Fed g ms s.level.barometer ∧
    runs (withoutBarometer c) (init (withoutBarometer c) g) ms = .ok (withBaro s LevelEst.Barometer.init, outs) := by
  induction ms using List.reverseRecOn generalizing s outs with
  | nil => cases h; exact ⟨⟨[], rfl, rfl, rfl⟩, rfl⟩
  | append_singleton ms m ih =>
    obtain ⟨s1, outs1, r, h1, h2, h3⟩ := runs_snoc h
    have ht := traced_runs hc g ms h1
    obtain ⟨i1, i2⟩ := ih (lt_of_le_of_lt (counted_grows g ms [m]) hlen) h1
    obtain ⟨-, x, l, hst, -⟩ := traced_step hc ht h2
    obtain ⟨-, -, -, -, -, -, -, ⟨d, -, h9⟩, -⟩ := sense_parts hst.sense
    obtain ⟨-, -, f3, -⟩ := locate_frame hst.locate
    have hsen : (Radio.updateMeasurements c.pre s1.pre m).sensor = lastSensor g.sensor (ms ++ [m]) := by
      rw [update_sensor, lastSensor_snoc, ht.sensor]
    have hcl : ∀ d, LevelEst.calculateLevel c.cs.useBarometer s1.level d (lastSensor g.sensor (ms ++ [m])) =
        ((LevelEst.checkLevelChange s1.level.barometer (LevelEst.detectLevelUsingHistory s1.level.history d).1
            (lastSensor g.sensor (ms ++ [m]))).1,
          ⟨(LevelEst.detectLevelUsingHistory s1.level.history d).2,
            (LevelEst.checkLevelChange s1.level.barometer (LevelEst.detectLevelUsingHistory s1.level.history d).1
            (lastSensor g.sensor (ms ++ [m]))).2⟩) := by
      intro d
      rw [hu]
      rfl
    refine ⟨?_, ?_⟩
    · rw [hsen, hcl, Prod.mk.injEq] at h9
      rw [hst.state, f3, ← h9.2]
      exact (fed_step i1 m _).1
    · have hs := step_without (c := c) (s := s1) (m := m) LevelEst.Barometer.init (by
        intro d
        rw [hsen, hcl]
        exact (fed_step i1 m _).2 hlen)
      rw [runs_append, i2]
      change andThen (andThen (step (withoutBarometer c) (withBaro s1 LevelEst.Barometer.init) m) _) _ = _
      rw [hs, h2, h3]
      rfl

/-- **C127.** As long as fewer than 201 pressures are counted (for example, because the device has no pressure sensor), a client
with barometer answers exactly like the same client without: every map, every estimator, every history. -/
theorem C127_idle {ls : List Level} {c : Cfg} (hc : Client ls c) (hu : c.cs.useBarometer = true) (g : Garbage)
    (batches : List (List Measurement)) (hlen : (counted g (taken batches)).length < 201) :
    Client ls (withoutBarometer c) ∧
    ∃ s s' outs, navigateAll c (init c g) batches = .ok (s, outs) ∧
      navigateAll (withoutBarometer c) (init (withoutBarometer c) g) batches = .ok (s', outs) := by
  refine ⟨without_client hc, ?_⟩
  obtain ⟨s, outs, h, -⟩ := C79_total hc g batches
  refine ⟨s, withBaro s LevelEst.Barometer.init, outs, h, ?_⟩
  rw [navigateAll_eq] at h ⊢
  exact (without_runs hc hu g _ hlen h).2

/-- **C127.** No pressure is counted if the sensor memory of the client and all sensor measurements are of other kinds. -/
theorem C127_no_sensor (g : Garbage) (hg : g.sensor.data.type ≠ .BAROMETER) (ms : List Measurement)
    (h : ∀ m ∈ ms, ∀ d, m.data = .sensor d → d.type ≠ .BAROMETER) : counted g ms = [] := by
  have hl : ∀ ms : List Measurement, (∀ m ∈ ms, ∀ d, m.data = .sensor d → d.type ≠ .BAROMETER) →
      (lastSensor g.sensor ms).data.type ≠ .BAROMETER := by
    intro ms
    induction ms using List.reverseRecOn with
    | nil => intro _; exact hg
    | append_singleton ms m ih =>
      intro h
      rw [lastSensor_snoc]
      cases hd : m.data with
      | sensor d => exact h m (by simp) d hd
      | radio d => exact ih (fun m hm => h m (by simp [hm]))
      | nmea d => exact ih (fun m hm => h m (by simp [hm]))
  induction ms using List.reverseRecOn with
  | nil => rfl
  | append_singleton ms m ih =>
    by_cases hne : ms = []
    · subst hne; exact counted_small g _ (by simp)
    · rw [counted_snoc g ms m hne, ih (fun m hm => h m (by simp [hm])), pressureSeen_eq, if_neg (hl _ h)]
      rfl

end Verif.Pressure
