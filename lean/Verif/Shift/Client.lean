import Verif.Shift.Post
import Verif.Shift.Spec
import Verif.Nav.Memory

/-!
# Moving the time: the client

Helper for C116.
-/

namespace Verif.Shift

open Verif Verif.Levels Verif.Nav
open Verif.Knn (Result)

variable (L δ : Int)

/-- A moved client. -/
def shState (s : State) : State :=
  ⟨shPre L δ s.pre, shFus L δ s.fusion, s.level, shPos L δ s.indoorPos, shOut L δ s.outdoor, shPost L δ s.post,
    shPos L δ s.position, s.flagIndoorPos, s.prevHeading, s.prevGyro⟩

/-- All time stamps of the client are late enough, or initial. -/
structure StOk (s : State) : Prop where
  pre : PreOk L s.pre
  fusion : FusOk L s.fusion
  indoor : PosOk L s.indoorPos
  outdoor : OutOk L s.outdoor
  post : PostOk L s.post

/-- Moved intermediate results. -/
noncomputable def shSensed (x : Sensed) : Sensed :=
  ⟨shPre L δ x.pre, shFus L δ x.fusion, shInfo L δ x.info, x.radio, x.level, x.levelId, shOut L δ x.outdoor,
    shPos L δ x.outdoorPos⟩

/-- All time stamps of the intermediate results are late enough, or initial. -/
structure SensedOk (x : Sensed) : Prop where
  pre : PreOk L x.pre
  now : L ≤ x.pre.currentTs
  fusion : FusOk L x.fusion
  motion : Mem L 0 x.info.lastMotionTs
  outdoor : OutOk L x.outdoor
  outdoorPos : PosOk L x.outdoorPos

/-- Moved results. -/
def shLocated (x : Located) : Located := ⟨shState L δ x.state, x.status, x.azimuth⟩

variable {L δ}

theorem andThen_shRes {α α' β β' : Type} (f : α → α') (h : β → β') (r : Result α) (k : α → Result β) (k' : α' → Result β')
    (hk : ∀ a, r = .ok a → k' (f a) = shRes h (k a)) :
    andThen (shRes f r) k' = shRes h (andThen r k) := by
  cases r with
  | ok a => exact hk a rfl
  | throws => rfl
  | undefined => rfl

theorem andThen_ok {α β : Type} {r : Result α} {k : α → Result β} {b : β} (h : andThen r k = .ok b) :
    ∃ a, r = .ok a ∧ k a = .ok b := by
  cases r with
  | ok a => exact ⟨a, rfl, h⟩
  | throws => cases h
  | undefined => cases h

theorem orUndefined_sh {α β : Type} (f : α → β) (o : Option α) : orUndefined (o.map f) = shRes f (orUndefined o) := by
  cases o <;> rfl

theorem orUndefined_ok {α : Type} {o : Option α} {a : α} (h : orUndefined o = .ok a) : o = some a := by
  cases o with
  | none => cases h
  | some b => cases h; rfl

theorem sense_sh (hL : 2000 ≤ L) (hδ : 0 ≤ δ) {c : Cfg} (hs : c.env.radioSorts.Lawful) (hb : Blind δ c.env.radioSorts)
    {s : State} (h : StOk L s) {m : Measurement} (hm : L ≤ m.ts) :
    sense c (shState L δ s) (shS L δ m) = shRes (shSensed L δ) (sense c s m) ∧
      ∀ x, sense c s m = .ok x → SensedOk L x := by
  have h0 : (0 : Int) < L := by omega
  obtain ⟨p1, p2, p3⟩ := updateMeasurements_sh (δ := δ) h0 hδ c.pre h.pre hm
  have hnow : L ≤ (Radio.updateMeasurements c.pre s.pre m).currentTs := by rw [p3]; exact hm
  have e0 : (shState L δ s).pre = shPre L δ s.pre := rfl
  unfold sense
  dsimp only
  rw [e0, p1]
  generalize Radio.updateMeasurements c.pre s.pre m = pre at *
  obtain ⟨d1, d2⟩ := displacement_sh (δ := δ) hL hδ c.fusion h.fusion p2.sensor hnow
  have e1 : Fusion.calculateDisplacement c.fusion (shState L δ s).fusion (shPre L δ pre).sensor (shPre L δ pre).currentTs = _ := d1
  rw [e1]
  revert d2
  cases Fusion.calculateDisplacement c.fusion s.fusion pre.sensor pre.currentTs with
  | none => intro _; exact ⟨rfl, fun x hx => by cases hx⟩
  | some f =>
    intro d2
    obtain ⟨f1, f2⟩ := d2 f rfl
    simp only [Option.map_some, orUndefined, andThen]
    obtain ⟨r1, r2⟩ := extractRadio_sh (δ := δ) h0 hδ hs hb c.pre p2 f2
    have e2 : (shInfo L δ f.2).lastMotionTs = sh L δ f.2.lastMotionTs := rfl
    rw [e2, r1]
    have e3 : (Radio.extractRadioMeasurements c.env.radioSorts c.pre pre f.2.lastMotionTs).2.currentTs = pre.currentTs := rfl
    revert r2 e3
    generalize Radio.extractRadioMeasurements c.env.radioSorts c.pre pre f.2.lastMotionTs = e
    intro r2 e3
    dsimp only
    cases he : e.1 with
    | none => exact ⟨rfl, fun x hx => by cases hx⟩
    | some radio =>
      dsimp only [orThrow]
      cases detectLevel c radio with
      | none => exact ⟨rfl, fun x hx => by cases hx⟩
      | some detected =>
        dsimp only
        obtain ⟨o1, o2⟩ := outdoorPosition_sh (δ := δ) h0 hδ c.cs c.levels h.outdoor hnow pre.sensor pre.nmea s.flagIndoorPos
        have e4 : Estim.outdoorPosition c.cs c.levels (shState L δ s).outdoor (shPre L δ pre).currentTs (shPre L δ pre).sensor
            (shPre L δ pre).nmea (shState L δ s).flagIndoorPos = _ := o1
        rw [e4]
        revert o2
        cases Estim.outdoorPosition c.cs c.levels s.outdoor pre.currentTs pre.sensor pre.nmea s.flagIndoorPos with
        | none => intro _; exact ⟨rfl, fun x hx => by cases hx⟩
        | some o =>
          intro o2
          obtain ⟨g1, g2⟩ := o2 o rfl
          refine ⟨rfl, fun x hx => ?_⟩
          cases hx
          exact ⟨r2, by change L ≤ e.2.currentTs; rw [e3]; exact hnow, f1, f2, g2, g1⟩

theorem timedOut_sh (hL : 0 < L) (hδ : 0 ≤ δ) (c : Cfg) {x : Sensed} (h : SensedOk L x) :
    timedOutLevel c (shSensed L δ x) = timedOutLevel c x := by
  unfold timedOutLevel
  have e1 : (shSensed L δ x).pre.currentTs - (shSensed L δ x).pre.lastSignalTs = x.pre.currentTs - x.pre.lastSignalTs :=
    sh_sub h.now h.pre.signal
  have e2 : (shSensed L δ x).info.lastMotionTs > 0 ↔ x.info.lastMotionTs > 0 := sh_pos hL hδ
  have e3 : (shSensed L δ x).levelId = x.levelId := rfl
  dsimp only
  rw [e1, e3]
  have e4 : (x.pre.currentTs - x.pre.lastSignalTs ≥ c.noAction ∧
      (shSensed L δ x).pre.currentTs - (shSensed L δ x).info.lastMotionTs ≥ c.noAction ∧ (shSensed L δ x).info.lastMotionTs > 0) ↔
      (x.pre.currentTs - x.pre.lastSignalTs ≥ c.noAction ∧
        x.pre.currentTs - x.info.lastMotionTs ≥ c.noAction ∧ x.info.lastMotionTs > 0) := by
    refine and_congr_right (fun _ => ?_)
    constructor
    · rintro ⟨a, b⟩
      have hp := e2.mp b
      have : (shSensed L δ x).pre.currentTs - (shSensed L δ x).info.lastMotionTs = x.pre.currentTs - x.info.lastMotionTs :=
        sh_sub h.now (h.motion.resolve_left (by omega))
      exact ⟨by omega, hp⟩
    · rintro ⟨a, b⟩
      have : (shSensed L δ x).pre.currentTs - (shSensed L δ x).info.lastMotionTs = x.pre.currentTs - x.info.lastMotionTs :=
        sh_sub h.now (h.motion.resolve_left (by omega))
      exact ⟨by omega, e2.mpr b⟩
  by_cases hc : x.pre.currentTs - x.pre.lastSignalTs ≥ c.noAction ∧
        x.pre.currentTs - x.info.lastMotionTs ≥ c.noAction ∧ x.info.lastMotionTs > 0
  · rw [if_pos hc, if_pos (e4.mpr hc)]
  · rw [if_neg hc, if_neg (fun g => hc (e4.mp g))]

theorem indoorPosition_sh (hL : 0 < L) (c : Cfg) {p : Position} (hp : PosOk L p) (level : Level) {ts : Int} (ht : L ≤ ts)
    (radio : List RadioData) :
    indoorPosition c (shPos L δ p) level (sh L δ ts) radio =
        shRes (fun r => (r.1, shPos L δ r.2.1, shPos L δ r.2.2)) (indoorPosition c p level ts radio) ∧
      ∀ r, indoorPosition c p level ts radio = .ok r → PosOk L r.2.1 ∧ PosOk L r.2.2 := by
  unfold indoorPosition
  cases c.indoor with
  | knn k =>
    obtain ⟨h1, h2⟩ := knn_sh (δ := δ) k hp level ht radio
    dsimp only
    rw [h1]
    revert h2
    cases Knn.calculatePosition k p level ts radio with
    | ok r => intro h2; exact ⟨rfl, fun r' hr => by cases hr; exact ⟨h2 r rfl, h2 r rfl⟩⟩
    | throws => intro _; exact ⟨rfl, fun r hr => by cases hr⟩
    | undefined => intro _; exact ⟨rfl, fun r hr => by cases hr⟩
  | zone A B =>
    obtain ⟨h1, h2⟩ := zone_sh (δ := δ) hL A B level ht radio
    dsimp only
    rw [h1]
    exact ⟨rfl, fun r hr => by cases hr; exact ⟨h2, hp⟩⟩

/-- The stop update time has passed at `L`. -/
def StopsOk (L : Int) (cs : CommonSettings) : Prop := cs.useStops = true → Post.toLongLong (1000 * cs.stopUpdateTime) < L

theorem locateIndoor_sh (hL : 0 < L) (hδ : 0 ≤ δ) {c : Cfg} (hu : StopsOk L c.cs) {s : State} (h : StOk L s) {x : Sensed}
    (hx : SensedOk L x) (level : Level) :
    locateIndoor c (shState L δ s) (shSensed L δ x) level = shRes (shLocated L δ) (locateIndoor c s x level) ∧
      ∀ l, locateIndoor c s x level = .ok l → StOk L l.state := by
  unfold locateIndoor
  obtain ⟨i1, i2⟩ := indoorPosition_sh (δ := δ) hL c h.indoor level hx.now x.radio
  have e1 : indoorPosition c (shState L δ s).indoorPos level (shSensed L δ x).pre.currentTs (shSensed L δ x).radio = _ := i1
  rw [e1]
  revert i2
  cases indoorPosition c s.indoorPos level x.pre.currentTs x.radio with
  | throws => intro _; exact ⟨rfl, fun l hl => by cases hl⟩
  | undefined => intro _; exact ⟨rfl, fun l hl => by cases hl⟩
  | ok i =>
    intro i2
    obtain ⟨g1, g2⟩ := i2 i rfl
    dsimp only [shRes, andThen]
    obtain ⟨f1, f2, f3⟩ := fuse_sh hδ c.cs h.post hx.now g1 hx.outdoorPos i.1
    have e2 : Post.fusePositions c.cs (shState L δ s).post (shSensed L δ x).pre.currentTs (shPos L δ i.2.1)
        (shSensed L δ x).outdoorPos i.1 = _ := f1
    rw [e2]
    generalize Post.fusePositions c.cs s.post x.pre.currentTs i.2.1 x.outdoorPos i.1 = f at *
    dsimp only
    have e3 : headingLogic (shSensed L δ x).info (shPos L δ f.1) (shState L δ s).prevHeading (shState L δ s).prevGyro =
        headingLogic x.info f.1 s.prevHeading s.prevGyro := rfl
    rw [e3]
    cases headingLogic x.info f.1 s.prevHeading s.prevGyro with
    | throws => exact ⟨rfl, fun l hl => by cases hl⟩
    | undefined => exact ⟨rfl, fun l hl => by cases hl⟩
    | ok hd =>
      dsimp only
      obtain ⟨p1, p2⟩ := processed_sh (δ := δ) hL hδ c.cs hu (c.env.allowed level) f3 f2 hx.now hx.motion level
      have e4 : Post.getProcessedPosition c.cs (c.env.allowed level) (shPost L δ f.2) (shPos L δ f.1)
          (shSensed L δ x).pre.currentTs (shSensed L δ x).info.lastMotionTs level = _ := p1
      rw [e4]
      revert p2
      cases Post.getProcessedPosition c.cs (c.env.allowed level) f.2 f.1 x.pre.currentTs x.info.lastMotionTs level with
      | none => intro _; exact ⟨rfl, fun l hl => by cases hl⟩
      | some p =>
        intro p2
        refine ⟨rfl, fun l hl => ?_⟩
        cases hl
        exact ⟨hx.pre, hx.fusion, g2, hx.outdoor, p2 p rfl⟩

theorem locate_sh (hL : 0 < L) (hδ : 0 ≤ δ) {c : Cfg} (hu : StopsOk L c.cs) {s : State} (h : StOk L s) {x : Sensed}
    (hx : SensedOk L x) :
    locate c (shState L δ s) (shSensed L δ x) = shRes (shLocated L δ) (locate c s x) ∧
      ∀ l, locate c s x = .ok l → StOk L l.state := by
  unfold locate
  dsimp only
  rw [timedOut_sh hL hδ c hx]
  by_cases h1 : hasLevel c.levels (timedOutLevel c x) = true
  · rw [if_pos h1, if_pos h1]
    cases Levels.level c.levels (timedOutLevel c x) with
    | none => exact ⟨rfl, fun l hl => by cases hl⟩
    | some level => exact locateIndoor_sh hL hδ hu h hx level
  · rw [if_neg h1, if_neg h1]
    have e : (shSensed L δ x).outdoorPos.isEmpty = x.outdoorPos.isEmpty := rfl
    rw [e]
    by_cases h2 : x.outdoorPos.isEmpty = false
    · rw [if_pos h2, if_pos h2]
      refine ⟨rfl, fun l hl => ?_⟩
      cases hl
      exact ⟨hx.pre, hx.fusion, h.indoor, hx.outdoor, h.post⟩
    · rw [if_neg h2, if_neg h2]
      refine ⟨rfl, fun l hl => ?_⟩
      cases hl
      exact ⟨hx.pre, hx.fusion, h.indoor, hx.outdoor, h.post⟩

theorem step_sh (hL : 2000 ≤ L) (hδ : 0 ≤ δ) {c : Cfg} (hs : c.env.radioSorts.Lawful) (hb : Blind δ c.env.radioSorts)
    (hu : StopsOk L c.cs) {s : State} (h : StOk L s) {m : Measurement} (hm : L ≤ m.ts) :
    step c (shState L δ s) (shS L δ m) = shRes (fun r => (shState L δ r.1, r.2)) (step c s m) ∧
      ∀ r, step c s m = .ok r → StOk L r.1 := by
  unfold step
  obtain ⟨s1, s2⟩ := sense_sh hL hδ hs hb h hm
  rw [s1]
  revert s2
  cases sense c s m with
  | throws => intro _; exact ⟨rfl, fun l hl => by cases hl⟩
  | undefined => intro _; exact ⟨rfl, fun l hl => by cases hl⟩
  | ok x =>
    intro s2
    dsimp only [shRes, andThen]
    obtain ⟨l1, l2⟩ := locate_sh (δ := δ) (by omega) hδ hu h (s2 x rfl)
    rw [l1]
    revert l2
    cases locate c s x with
    | throws => intro _; exact ⟨rfl, fun l hl => by cases hl⟩
    | undefined => intro _; exact ⟨rfl, fun l hl => by cases hl⟩
    | ok l =>
      intro l2
      dsimp only [shRes]
      have e : report c (shSensed L δ x) (shLocated L δ l) = report c x l := rfl
      rw [e]
      cases report c x l with
      | throws => exact ⟨rfl, fun l hl => by cases hl⟩
      | undefined => exact ⟨rfl, fun l hl => by cases hl⟩
      | ok out =>
        refine ⟨rfl, fun r hr => ?_⟩
        cases hr
        exact l2 l rfl

theorem runs_sh (hL : 2000 ≤ L) (hδ : 0 ≤ δ) {c : Cfg} (hs : c.env.radioSorts.Lawful) (hb : Blind δ c.env.radioSorts)
    (hu : StopsOk L c.cs) {s : State} (h : StOk L s) (ms : List Measurement) (hm : ∀ m ∈ ms, L ≤ m.ts) :
    runs c (shState L δ s) (ms.map (shS L δ)) = shRes (fun r => (shState L δ r.1, r.2)) (runs c s ms) := by
  induction ms generalizing s with
  | nil => rfl
  | cons m ms ih =>
    obtain ⟨h1, h2⟩ := step_sh hL hδ hs hb hu h (hm m List.mem_cons_self)
    rw [List.map_cons]
    unfold runs
    rw [h1]
    refine andThen_shRes _ _ _ _ _ (fun r hr => ?_)
    dsimp only
    rw [ih (h2 r hr) (fun m hm' => hm m (List.mem_cons_of_mem _ hm'))]
    exact andThen_shRes _ _ _ _ _ (fun r hr => rfl)

theorem init_sh (hL : 0 < L) (hδ : 0 ≤ δ) (c : Cfg) {g : Garbage} (h1 : L ≤ g.lastSignalTs) (h2 : L ≤ g.sensor.ts)
    (h3 : L ≤ g.nmea.ts) (h4 : L ≤ g.magn.2) (h5 : L ≤ g.accel.2) :
    init c ⟨g.lastSignalTs + δ, later δ g.sensor, later δ g.nmea, (g.magn.1, g.magn.2 + δ), (g.accel.1, g.accel.2 + δ)⟩ =
      shState L δ (init c g) ∧ StOk L (init c g) := by
  have hd := shPos_default (δ := δ) hL
  have z0 : sh L δ 0 = 0 := sh_old hL le_rfl
  have z1 : sh L δ (-1) = -1 := sh_old hL (by norm_num)
  obtain ⟨p1, p2⟩ := postInit_sh hL hδ (δ := δ) c.cs
  constructor
  · unfold init shState
    dsimp only
    rw [hd, p1]
    congr 1
    · simp [Radio.State.init, shPre, sh_real h1, shBuf, Radio.BufferState.init, z0, shS, sh_real h2, sh_real h3, later]
    · simp [Fusion.fusionInit, shFus, Fusion.cfInit, shCf, shPed, z1, z0, shS, sh_real h4, sh_real h5]
    · simp [Estim.outdoorInit, shOut, hd]
  · refine ⟨⟨h1, ⟨by simp [init, Radio.State.init, Radio.BufferState.init], Or.inl ⟨rfl, rfl, rfl⟩, Or.inl rfl⟩, h2⟩, ?_,
      posOk_default, Or.inl rfl, p2⟩
    exact ⟨⟨Or.inl rfl, Or.inl rfl, h4, h5⟩,
      ⟨fun m hm => (by cases hm), fun m hm => (by cases hm), Or.inl rfl, Or.inl rfl, rfl⟩⟩

end Verif.Shift
