import Verif.Inertial.Spec
import Verif.Nav.Trace
import Verif.Nav.StateProps

/-!
# The simulation between two sessions that differ in inertial messages

Helper for C117.
-/

namespace Verif.Inertial

open Verif Verif.Levels Verif.Nav
open Verif.Knn (Result)

/-- Two sensor messages the client treats alike, the orientation apart. -/
def SensLike (P : SensorType → Prop) (a b : SensorMeasurement) : Prop :=
  a.ts = b.ts ∧ (a.data = b.data ∨ (P a.data.type ∧ P b.data.type))

/-- Only sensors that neither give a place nor the level. -/
structure Harmless (cs : CommonSettings) (P : SensorType → Prop) : Prop where
  location : ¬ P .LOCATION
  barometer : P .BAROMETER → cs.useBarometer = false

theorem SensLike.type {P : SensorType → Prop} {a b : SensorMeasurement} (h : SensLike P a b) {t : SensorType} (ht : ¬ P t) :
    a.data.type = t ↔ b.data.type = t := by
  rcases h.2 with h | ⟨h1, h2⟩
  · rw [h]
  · constructor <;> intro e
    · rw [e] at h1; exact absurd h1 ht
    · rw [e] at h2; exact absurd h2 ht

theorem SensLike.same {P : SensorType → Prop} {a b : SensorMeasurement} (h : SensLike P a b) {t : SensorType} (ht : ¬ P t)
    (e : a.data.type = t) : a = b := by
  rcases h.2 with h2 | ⟨h1, -⟩
  · obtain ⟨d, t⟩ := a; obtain ⟨d', t'⟩ := b
    have := h.1
    simp only at this h2
    rw [this, h2]
  · rw [e] at h1; exact absurd h1 ht

/-! ## The parts -/

theorem gps_like {cs : CommonSettings} {P : SensorType → Prop} (hP : ¬ P .LOCATION) {a b : SensorMeasurement} (h : SensLike P a b)
    (ts : Int) : Estim.extractGpsPosition cs ts a = Estim.extractGpsPosition cs ts b := by
  by_cases e : a.data.type = .LOCATION
  · rw [h.same hP e]
  · unfold Estim.extractGpsPosition
    rw [if_neg e, if_neg (fun e' => e ((h.type hP).mpr e'))]

theorem outdoor_like {cs : CommonSettings} {P : SensorType → Prop} (hP : ¬ P .LOCATION) {a b : SensorMeasurement} (h : SensLike P a b)
    (c : LevelCollector) (st : Estim.OutdoorState) (ts : Int) (n : NmeaMeasurement) (f : Bool) :
    Estim.outdoorPosition cs c st ts a n f = Estim.outdoorPosition cs c st ts b n f := by
  unfold Estim.outdoorPosition
  rw [gps_like hP h]

theorem level_like {u : Bool} {P : SensorType → Prop} (hP : P .BAROMETER → u = false) {a b : SensorMeasurement}
    (h : SensLike P a b) (e : LevelEst.Estimator) (d : String) :
    LevelEst.calculateLevel u e d a = LevelEst.calculateLevel u e d b := by
  unfold LevelEst.calculateLevel
  cases u with
  | false => rfl
  | true =>
    have hB : ¬ P .BAROMETER := fun h => by cases hP h
    have hb : ∀ x, LevelEst.updateBuffers x a = LevelEst.updateBuffers x b := by
      intro x
      by_cases e : a.data.type = .BAROMETER
      · rw [h.same hB e]
      · unfold LevelEst.updateBuffers
        rw [if_neg e, if_neg (fun e' => e ((h.type hB).mpr e'))]
    have : ∀ x l, LevelEst.checkLevelChange x l a = LevelEst.checkLevelChange x l b := by
      intro x l
      unfold LevelEst.checkLevelChange
      rw [hb]
    simp only [this]

/-- Equal up to the time of the last step. -/
def BufLike (a b : Radio.BufferState) : Prop := b = { a with lastStepTs := b.lastStepTs }

theorem extract_like (s : Radio.Sorts) (cfg : Radio.BufferCfg) {a b : Radio.BufferState} (h : BufLike a b) {t t' : Int}
    (hs : (a.lastStepTs = b.lastStepTs ∧ t = t') ∨ cfg.useStops = false) :
    (Radio.extractMeasurements s cfg a t).1 = (Radio.extractMeasurements s cfg b t').1 ∧
      BufLike (Radio.extractMeasurements s cfg a t).2 (Radio.extractMeasurements s cfg b t').2 ∧
      (a.lastStepTs = b.lastStepTs → t = t' →
        (Radio.extractMeasurements s cfg a t).2.lastStepTs = (Radio.extractMeasurements s cfg b t').2.lastStepTs) := by
  rcases hs with ⟨h1, rfl⟩ | hs
  · have : a = b := by rw [h, ← h1]
    rw [this]
    exact ⟨rfl, rfl, fun _ _ => rfl⟩
  · have key : ∀ (a : Radio.BufferState) (k t : Int), ∃ k', Radio.extractMeasurements s cfg { a with lastStepTs := k } t =
        ((Radio.extractMeasurements s cfg a 0).1, { (Radio.extractMeasurements s cfg a 0).2 with lastStepTs := k' }) ∧
        k' = if t > 0 then t else k := by
      intro a k t
      refine ⟨_, ?_, rfl⟩
      have e : (if t > 0 then ({ { a with lastStepTs := k } with lastStepTs := t } : Radio.BufferState) else { a with lastStepTs := k }) =
          { a with lastStepTs := if t > 0 then t else k } := by split_ifs <;> rfl
      unfold Radio.extractMeasurements
      rw [e]
      simp only [hs, Bool.false_and, Bool.false_eq_true, if_false, gt_iff_lt, lt_irrefl]
      split_ifs <;> rfl
    obtain ⟨k1, e1, r1⟩ := key a a.lastStepTs t
    obtain ⟨k2, e2, r2⟩ := key a b.lastStepTs t'
    have ea : ({ a with lastStepTs := a.lastStepTs } : Radio.BufferState) = a := rfl
    have eb : ({ a with lastStepTs := b.lastStepTs } : Radio.BufferState) = b := h.symm
    rw [ea] at e1
    rw [eb] at e2
    rw [e1, e2]
    exact ⟨rfl, rfl, fun p q => by rw [r1, r2, p, q]⟩

/-- Equal up to the time of the last step. -/
def PostLike (a b : Post.PostState) : Prop := b = { a with lastStepTs := b.lastStepTs }

theorem fuse_like (cs : CommonSettings) {a b : Post.PostState} (h : PostLike a b) (ts : Int) (i o : Position) (st : NavigationStatus) :
    (Post.fusePositions cs a ts i o st).1 = (Post.fusePositions cs b ts i o st).1 ∧
      PostLike (Post.fusePositions cs a ts i o st).2 (Post.fusePositions cs b ts i o st).2 ∧
      (Post.fusePositions cs a ts i o st).2.lastStepTs = a.lastStepTs ∧
      (Post.fusePositions cs b ts i o st).2.lastStepTs = b.lastStepTs := by
  have hf : ∀ (a : Post.PostState) (k : Int), Post.fillOutdoor cs (Post.fillIndoor cs { a with lastStepTs := k } i) o =
      { Post.fillOutdoor cs (Post.fillIndoor cs a i) o with lastStepTs := k } := by
    intro a k
    unfold Post.fillOutdoor Post.fillIndoor
    split_ifs <;> rfl
  have hl : ∀ a : Post.PostState, (Post.fillOutdoor cs (Post.fillIndoor cs a i) o).lastStepTs = a.lastStepTs := by
    intro a
    unfold Post.fillOutdoor Post.fillIndoor
    split_ifs <;> rfl
  have hb : Post.fillOutdoor cs (Post.fillIndoor cs b i) o =
      { Post.fillOutdoor cs (Post.fillIndoor cs a i) o with lastStepTs := b.lastStepTs } := by
    rw [← hf]; exact congrArg (fun x => Post.fillOutdoor cs (Post.fillIndoor cs x i) o) h
  refine ⟨?_, ?_, hl a, hl b⟩
  · unfold Post.fusePositions
    dsimp only
    rw [hb]
    rfl
  · change Post.fillOutdoor cs (Post.fillIndoor cs b i) o =
      { Post.fillOutdoor cs (Post.fillIndoor cs a i) o with lastStepTs := (Post.fillOutdoor cs (Post.fillIndoor cs b i) o).lastStepTs }
    rw [hl b]; exact hb

theorem smoothing_like (cs : CommonSettings) (allowed : ℝ → ℝ → Prop) (a : Post.PostState) (k : Int) (p : Position) (ts : Int) :
    Post.smoothing cs allowed { a with lastStepTs := k } p ts =
      (Post.smoothing cs allowed a p ts).map (fun r => (r.1, { r.2 with lastStepTs := k })) := by
  unfold Post.smoothing
  dsimp only
  by_cases h1 : cs.useSmoothing = true
  · rw [if_pos h1, if_pos h1]
    by_cases h2 : cs.useTimeSmoothing = true
    · simp only [h2, if_true, Option.map_map]
      rfl
    · simp only [h2, if_false, Option.map_map]
      rfl
  · rw [if_neg h1, if_neg h1]
    by_cases h2 : cs.useTimeSmoothing = true
    · simp only [h2, if_true]
      rfl
    · simp only [h2]
      rfl

theorem processed_like (cs : CommonSettings) (allowed : ℝ → ℝ → Prop) {a b : Post.PostState} (h : PostLike a b) (p : Position)
    (ts : Int) {t t' : Int} (lv : Level) (hs : (a.lastStepTs = b.lastStepTs ∧ t = t') ∨ cs.useStops = false)
    {r r' : Position × Post.PostState} (hr : Post.getProcessedPosition cs allowed a p ts t lv = some r)
    (hr' : Post.getProcessedPosition cs allowed b p ts t' lv = some r') :
    r.1 = r'.1 ∧ PostLike r.2 r'.2 ∧ (a.lastStepTs = b.lastStepTs → t = t' → r.2.lastStepTs = r'.2.lastStepTs) := by
  rcases hs with ⟨h1, rfl⟩ | hs
  · have : a = b := by rw [h, ← h1]
    rw [this, hr'] at hr
    rw [Option.some.injEq] at hr
    rw [hr]
    exact ⟨rfl, rfl, fun _ _ => rfl⟩
  · have tk : ∀ (s : Post.PostState) (k : Int) (q : Position), Post.takeOver cs { s with lastStepTs := k } q ts =
        { Post.takeOver cs s q ts with lastStepTs := k } := by
      intro s k q
      unfold Post.takeOver
      simp only [hs, Bool.false_eq_true, false_and, if_false]
    have key : ∀ (a : Post.PostState) (k t : Int), Post.getProcessedPosition cs allowed { a with lastStepTs := k } p ts t lv =
        (Post.getProcessedPosition cs allowed a p ts 0 lv).map
          (fun r => (r.1, { r.2 with lastStepTs := if t > 0 then t else k })) := by
      intro a k t
      have e : (if t > 0 then ({ { a with lastStepTs := k } with lastStepTs := t } : Post.PostState) else { a with lastStepTs := k }) =
          { a with lastStepTs := if t > 0 then t else k } := by split_ifs <;> rfl
      unfold Post.getProcessedPosition
      rw [e, if_neg (lt_irrefl (0 : Int))]
      dsimp only
      generalize (if t > 0 then t else k) = k'
      rw [smoothing_like]
      by_cases k1 : p.isEmpty = true
      · rw [if_pos k1, if_pos k1]; rfl
      · rw [if_neg k1, if_neg k1]
        by_cases k2 : ¬ Post.isInsideMap cs p lv
        · rw [if_pos k2, if_pos k2]; rfl
        · rw [if_neg k2, if_neg k2]
          by_cases k3 : ts - p.ts ≥ Post.toLongLong (1000 * cs.deadReckoningTime)
          · rw [if_pos k3, if_pos k3]; rfl
          · rw [if_neg k3, if_neg k3]
            cases Post.smoothing cs allowed a p ts with
            | none => rfl
            | some r =>
              simp only [Option.map_some, Option.bind_some]
              rw [tk r.2 k' r.1]
              cases Post.snapToGraph cs lv (Post.takeOver cs r.2 r.1 ts).lastOut with
              | none => rfl
              | some q => rfl
    have e1 := key a a.lastStepTs t
    have e2 := key a b.lastStepTs t'
    have ea : ({ a with lastStepTs := a.lastStepTs } : Post.PostState) = a := rfl
    have eb : ({ a with lastStepTs := b.lastStepTs } : Post.PostState) = b := h.symm
    rw [ea, hr] at e1
    rw [eb, hr'] at e2
    cases hx : Post.getProcessedPosition cs allowed a p ts 0 lv with
    | none => rw [hx] at e1; cases e1
    | some q =>
      rw [hx] at e1 e2
      simp only [Option.map_some, Option.some.injEq] at e1 e2
      rw [e1, e2]
      exact ⟨rfl, rfl, fun u v => by simp only [u, v]⟩

/-! ## The client -/

/-- The steps do not differ, or they do not matter. -/
def StepsIrrelevant (c : Cfg) : Prop := c.cs.useStops = false ∧ 0 < c.noAction

/-- States that give the same places. -/
structure Like (P : SensorType → Prop) (s s' : State) : Prop where
  sensor : SensLike P s.pre.sensor s'.pre.sensor
  signal : s.pre.lastSignalTs = s'.pre.lastSignalTs
  buffer : BufLike s.pre.buffer s'.pre.buffer
  nmea : s.pre.nmea = s'.pre.nmea
  level : s.level = s'.level
  indoor : s.indoorPos = s'.indoorPos
  outdoor : s.outdoor = s'.outdoor
  post : PostLike s.post s'.post
  position : s.position = s'.position
  flag : s.flagIndoorPos = s'.flagIndoorPos
  heading : s.prevHeading = s'.prevHeading
  steps : ¬ P .ACCELEROMETER → s.fusion.pedometer = s'.fusion.pedometer ∧ s.fusion.stepCounter = s'.fusion.stepCounter ∧
    s.pre.buffer.lastStepTs = s'.pre.buffer.lastStepTs ∧ s.post.lastStepTs = s'.post.lastStepTs

/-- Intermediate results that give the same places. -/
structure XLike (P : SensorType → Prop) (x x' : Sensed) : Prop where
  sensor : SensLike P x.pre.sensor x'.pre.sensor
  now : x.pre.currentTs = x'.pre.currentTs
  signal : x.pre.lastSignalTs = x'.pre.lastSignalTs
  buffer : BufLike x.pre.buffer x'.pre.buffer
  nmea : x.pre.nmea = x'.pre.nmea
  radio : x.radio = x'.radio
  level : x.level = x'.level
  levelId : x.levelId = x'.levelId
  outdoor : x.outdoor = x'.outdoor
  outdoorPos : x.outdoorPos = x'.outdoorPos
  steps : ¬ P .ACCELEROMETER → x.fusion.pedometer = x'.fusion.pedometer ∧ x.fusion.stepCounter = x'.fusion.stepCounter ∧
    x.pre.buffer.lastStepTs = x'.pre.buffer.lastStepTs ∧ x.info.lastMotionTs = x'.info.lastMotionTs ∧
    x.info.stepCounter = x'.info.stepCounter ∧ x.info.distance = x'.info.distance

theorem displacement_like {P : SensorType → Prop} (hP : ¬ P .ACCELEROMETER) (c : Fusion.FusionConfig) {s s' : Fusion.FusionState}
    (h1 : s.pedometer = s'.pedometer) (h2 : s.stepCounter = s'.stepCounter) {a b : SensorMeasurement} (h : SensLike P a b) (ts : Int)
    {r r' : Fusion.FusionState × Fusion.MotionInfo} (hr : Fusion.calculateDisplacement c s a ts = some r)
    (hr' : Fusion.calculateDisplacement c s' b ts = some r') :
    r.1.pedometer = r'.1.pedometer ∧ r.1.stepCounter = r'.1.stepCounter ∧ r.2.lastMotionTs = r'.2.lastMotionTs ∧
      r.2.stepCounter = r'.2.stepCounter ∧ r.2.distance = r'.2.distance := by
  have hu : Pedo.update s.pedometer a = Pedo.update s'.pedometer b := by
    rw [h1]
    by_cases e : a.data.type = .ACCELEROMETER
    · rw [h.same hP e]
    · unfold Pedo.update
      dsimp only
      rw [if_neg e, if_neg (fun e' => e ((h.type hP).mpr e'))]
  have view : ∀ (s : Fusion.FusionState) (a : SensorMeasurement) (r : Fusion.FusionState × Fusion.MotionInfo),
      Fusion.calculateDisplacement c s a ts = some r →
      ∃ ped q, Pedo.update s.pedometer a = some ped ∧ Pedo.calculateSteps ped = some q ∧
        r.1.pedometer = q.1 ∧ r.1.stepCounter = s.stepCounter + q.2.length ∧
        r.2.lastMotionTs = (if q.2.isEmpty then 0 else ts) ∧
        r.2.stepCounter = (if q.2.isEmpty then 0 else s.stepCounter + q.2.length) ∧
        r.2.distance = (if q.2.isEmpty then 0 else q.2.foldl (fun sum st => sum + st.len) 0 * c.stepMultiplier) := by
    intro s a r hr
    unfold Fusion.calculateDisplacement at hr
    cases h1 : Pedo.update s.pedometer a with
    | none => rw [h1] at hr; cases hr
    | some ped =>
      rw [h1] at hr
      dsimp only at hr
      cases h2 : Pedo.calculateSteps ped with
      | none => rw [h2] at hr; cases hr
      | some q =>
        rw [h2] at hr
        obtain ⟨q1, q2⟩ := q
        refine ⟨ped, (q1, q2), rfl, h2, ?_⟩
        dsimp only at hr ⊢
        cases q2 with
        | nil =>
          simp only [List.isEmpty_nil, Bool.not_true, Bool.false_eq_true, if_false, Option.some.injEq] at hr
          rw [← hr]
          refine ⟨rfl, rfl, ?_, ?_, ?_⟩ <;> simp only [List.isEmpty_nil, if_true] <;> split_ifs <;> rfl
        | cons st q2 =>
          simp only [List.isEmpty_cons, Bool.not_false, if_true, Option.some.injEq] at hr
          rw [← hr]
          exact ⟨rfl, rfl, rfl, rfl, rfl⟩
  obtain ⟨p, q, a1, a2, a3, a4, a5, a6, a7⟩ := view s a r hr
  obtain ⟨p', q', b1, b2, b3, b4, b5, b6, b7⟩ := view s' b r' hr'
  rw [hu, b1, Option.some.injEq] at a1
  rw [← a1, b2, Option.some.injEq] at a2
  rw [a3, a4, a5, a6, a7, b3, b4, b5, b6, b7, a2, h2]
  exact ⟨rfl, rfl, rfl, rfl, rfl⟩

theorem update_like {P : SensorType → Prop} (cfg : Radio.Cfg) {st st' : Radio.State} {m m' : Measurement} (hm : SameBut P m m')
    (h1 : SensLike P st.sensor st'.sensor) (h2 : st.lastSignalTs = st'.lastSignalTs) (h3 : BufLike st.buffer st'.buffer)
    (h4 : st.nmea = st'.nmea) :
    let r := Radio.updateMeasurements cfg st m
    let r' := Radio.updateMeasurements cfg st' m'
    SensLike P r.sensor r'.sensor ∧ r.lastSignalTs = r'.lastSignalTs ∧ BufLike r.buffer r'.buffer ∧ r.nmea = r'.nmea ∧
      r.currentTs = r'.currentTs ∧ r.buffer.lastStepTs = st.buffer.lastStepTs ∧ r'.buffer.lastStepTs = st'.buffer.lastStepTs := by
  intro r r'
  rcases hm with rfl | ⟨d, d', e1, e2, p1, p2, ht⟩
  · have hr : r = Radio.updateMeasurements cfg st m := rfl
    have hr' : r' = Radio.updateMeasurements cfg st' m := rfl
    unfold Radio.updateMeasurements at hr hr'
    dsimp only at hr hr'
    obtain ⟨data, ts⟩ := m
    cases data with
    | radio d =>
      dsimp only at hr hr'
      cases hv : Radio.getValidSignalEntry cfg d with
      | none =>
        rw [hv] at hr hr'
        dsimp only at hr hr'
        rw [hr, hr']
        exact ⟨h1, h2, h3, h4, rfl, rfl, rfl⟩
      | some v =>
        rw [hv] at hr hr'
        dsimp only at hr hr'
        rw [hr, hr']
        have hadd : ∀ b : Radio.BufferState, (Radio.addMeasurement cfg.buffer b ⟨v, ts⟩).lastStepTs = b.lastStepTs := by
          intro b
          unfold Radio.addMeasurement
          dsimp only
          split_ifs <;> rfl
        refine ⟨h1, rfl, ?_, h4, rfl, hadd _, hadd _⟩
        have hk : ∀ (b : Radio.BufferState) (k : Int), Radio.addMeasurement cfg.buffer { b with lastStepTs := k } ⟨v, ts⟩ =
            { Radio.addMeasurement cfg.buffer b ⟨v, ts⟩ with lastStepTs := k } := by
          intro b k
          unfold Radio.addMeasurement
          dsimp only
          split_ifs <;> rfl
        unfold BufLike
        dsimp only
        rw [hadd, ← hk]
        exact congrArg (fun x => Radio.addMeasurement cfg.buffer x ⟨v, ts⟩) h3
    | sensor d =>
      dsimp only at hr hr'
      rw [hr, hr']
      exact ⟨⟨rfl, Or.inl rfl⟩, h2, h3, h4, rfl, rfl, rfl⟩
    | nmea d =>
      dsimp only at hr hr'
      rw [hr, hr']
      exact ⟨h1, h2, h3, rfl, rfl, rfl, rfl⟩
  · have hr : r = Radio.updateMeasurements cfg st m := rfl
    have hr' : r' = Radio.updateMeasurements cfg st' m' := rfl
    unfold Radio.updateMeasurements at hr hr'
    dsimp only at hr hr'
    rw [e1] at hr
    rw [e2] at hr'
    dsimp only at hr hr'
    rw [hr, hr']
    exact ⟨⟨ht, Or.inr ⟨p1, p2⟩⟩, h2, h3, h4, ht, rfl, rfl⟩

theorem sense_like {ls : List Level} {c : Cfg} (hc : Client ls c) {P : SensorType → Prop} (hP : Harmless c.cs P)
    (hs : ¬ P .ACCELEROMETER ∨ StepsIrrelevant c) {s s' : State} (h : Like P s s') {m m' : Measurement} (hm : SameBut P m m')
    {x x' : Sensed} (hx : sense c s m = .ok x) (hx' : sense c s' m' = .ok x') : XLike P x x' := by
  obtain ⟨a1, a2, a3, a4, a5, a6, a7, ⟨d, a8, a9⟩, a10⟩ := sense_parts hx
  obtain ⟨b1, b2, b3, b4, b5, b6, b7, ⟨d', b8, b9⟩, b10⟩ := sense_parts hx'
  obtain ⟨u1, u2, u3, u4, u5, u6, u7⟩ := update_like c.pre hm h.sensor h.signal h.buffer h.nmea
  have hts : m.ts = m'.ts := by
    rcases hm with rfl | ⟨_, _, _, _, _, _, e⟩
    · rfl
    · exact e
  have hstops : c.cs.useStops = false → c.pre.buffer.useStops = false := by
    intro h
    rw [hc.parts.pre]
    exact h
  have hd : ¬ P .ACCELEROMETER → x.fusion.pedometer = x'.fusion.pedometer ∧ x.fusion.stepCounter = x'.fusion.stepCounter ∧
      x.info.lastMotionTs = x'.info.lastMotionTs ∧ x.info.stepCounter = x'.info.stepCounter ∧ x.info.distance = x'.info.distance := by
    intro hA
    obtain ⟨k1, k2, -, -⟩ := h.steps hA
    rw [← hts] at b1
    exact displacement_like hA c.fusion k1 k2 u1 m.ts a1 b1
  have hst : ((Radio.updateMeasurements c.pre s.pre m).buffer.lastStepTs = (Radio.updateMeasurements c.pre s'.pre m').buffer.lastStepTs ∧
      x.info.lastMotionTs = x'.info.lastMotionTs) ∨ c.pre.buffer.useStops = false := by
    rcases hs with hA | hS
    · exact Or.inl ⟨by rw [u6, u7]; exact (h.steps hA).2.2.1, (hd hA).2.2.1⟩
    · exact Or.inr (hstops hS.1)
  obtain ⟨e1, e2, e3⟩ := extract_like c.env.radioSorts c.pre.buffer u3 hst
  have hradio : x.radio = x'.radio := by
    unfold Radio.extractRadioMeasurements at a2 b2
    dsimp only at a2 b2
    rw [e1, b2, Option.some.injEq] at a2
    exact a2.symm
  have hbuf : x.pre.buffer = (Radio.extractMeasurements c.env.radioSorts c.pre.buffer (Radio.updateMeasurements c.pre s.pre m).buffer x.info.lastMotionTs).2 := by
    rw [a3]; rfl
  have hbuf' : x'.pre.buffer = (Radio.extractMeasurements c.env.radioSorts c.pre.buffer (Radio.updateMeasurements c.pre s'.pre m').buffer x'.info.lastMotionTs).2 := by
    rw [b3]; rfl
  rw [hradio, b8, Option.some.injEq] at a8
  rw [← a8, h.level, level_like hP.barometer u1, b9, Prod.mk.injEq] at a9
  rw [h.outdoor, hts, u4, h.flag, outdoor_like hP.location u1, b10, Option.some.injEq, Prod.mk.injEq] at a10
  refine ⟨by rw [a4, b4]; exact u1, by rw [a7, b7, hts], by rw [a6, b6]; exact u2, by rw [hbuf, hbuf']; exact e2, by rw [a5, b5]; exact u4,
    hradio, a9.2.symm, a9.1.symm, a10.2.symm, a10.1.symm, fun hA => ?_⟩
  obtain ⟨k1, k2, k3, k4, k5⟩ := hd hA
  refine ⟨k1, k2, ?_, k3, k4, k5⟩
  rw [hbuf, hbuf']
  exact e3 (by rw [u6, u7]; exact (h.steps hA).2.2.1) k3

theorem heading_like {i i' : Fusion.MotionInfo} {p : Position} {h : Option ℝ} {r r' : ℝ × Bool × Option ℝ × Option ℝ}
    (e : headingLogic i p h none = .ok r) (e' : headingLogic i' p h none = .ok r') : r.2.2.1 = r'.2.2.1 := by
  have key : ∀ (i : Fusion.MotionInfo) (r : ℝ × Bool × Option ℝ × Option ℝ), headingLogic i p h none = .ok r →
      r.2.2.1 = if p.isEmpty = false then some p.heading else h := by
    intro i r e
    unfold headingLogic at e
    dsimp only at e
    cases h with
    | none => dsimp only at e; simp only [Result.ok.injEq] at e; rw [← e]
    | some h0 =>
      dsimp only at e
      by_cases h1 : p.isEmpty = false ∧ p.heading ≠ h0
      · rw [if_pos h1] at e
        simp only [Result.ok.injEq] at e
        rw [← e]
      · rw [if_neg h1] at e
        simp only [Result.ok.injEq] at e
        rw [← e]
  rw [key i r e, key i' r' e']

theorem timedOut_like {ls : List Level} {c : Cfg} {P : SensorType → Prop}
    (hs : ¬ P .ACCELEROMETER ∨ StepsIrrelevant c) {s s' : State} (hi : Inv ls c s) (hi' : Inv ls c s') {m m' : Measurement}
    {x x' : Sensed} (hx : sense c s m = .ok x) (hx' : sense c s' m' = .ok x') (hl : XLike P x x') :
    timedOutLevel c x = timedOutLevel c x' := by
  rcases hs with hA | hS
  · obtain ⟨-, -, -, k, -⟩ := hl.steps hA
    unfold timedOutLevel
    rw [hl.now, hl.signal, hl.levelId, k]
  · obtain ⟨-, -, -, -, -, -, e, -⟩ := sense_parts hx
    obtain ⟨-, -, -, -, -, -, e', -⟩ := sense_parts hx'
    rw [timedOut_eq hi hS.2 hx, timedOut_eq hi' hS.2 hx', ← e, ← e', hl.now, hl.signal, hl.levelId]

theorem locate_like {ls : List Level} {c : Cfg} {P : SensorType → Prop}
    (hs : ¬ P .ACCELEROMETER ∨ StepsIrrelevant c) {s s' : State} (hi : Inv ls c s) (hi' : Inv ls c s') (h : Like P s s')
    {m m' : Measurement} {x x' : Sensed} (hx : sense c s m = .ok x) (hx' : sense c s' m' = .ok x') (hl : XLike P x x')
    {l l' : Located} (h1 : locate c s x = .ok l) (h2 : locate c s' x' = .ok l') :
    Like P l.state l'.state ∧ l.status = l'.status := by
  unfold locate at h1 h2
  dsimp only at h1 h2
  rw [← timedOut_like hs hi hi' hx hx' hl, ← hl.outdoorPos] at h2
  have hst : ¬ P .ACCELEROMETER → x.fusion.pedometer = x'.fusion.pedometer ∧ x.fusion.stepCounter = x'.fusion.stepCounter ∧
    x.pre.buffer.lastStepTs = x'.pre.buffer.lastStepTs := fun hA => ⟨(hl.steps hA).1, (hl.steps hA).2.1, (hl.steps hA).2.2.1⟩
  by_cases k1 : hasLevel c.levels (timedOutLevel c x) = true
  · rw [if_pos k1] at h1 h2
    obtain ⟨lv, g1, g2⟩ := andThen_ok h1
    obtain ⟨lv', g1', g2'⟩ := andThen_ok h2
    rw [g1] at g1'
    cases g1'
    unfold locateIndoor at g2 g2'
    rw [← h.indoor, ← hl.now, ← hl.radio] at g2'
    obtain ⟨i, f1, f2⟩ := andThen_ok g2
    obtain ⟨i', f1', f2'⟩ := andThen_ok g2'
    rw [f1] at f1'
    simp only [Result.ok.injEq] at f1'
    subst f1'
    dsimp only at f2 f2'
    rw [← hl.outdoorPos] at f2'
    obtain ⟨q1, q2, q3, q4⟩ := fuse_like c.cs h.post x.pre.currentTs i.2.1 x.outdoorPos i.1
    rw [← q1, ← h.heading] at f2'
    obtain ⟨hd, r1, r2⟩ := andThen_ok f2
    obtain ⟨hd', r1', r2'⟩ := andThen_ok f2'
    obtain ⟨p, t1, t2⟩ := andThen_ok r2
    obtain ⟨p', t1', t2'⟩ := andThen_ok r2'
    have g : ∀ {α : Type} {a : Option α} {b : α}, orUndefined a = .ok b → a = some b := by
      intro α a b h; cases a <;> cases h; rfl
    have hsp : ((Post.fusePositions c.cs s.post x.pre.currentTs i.2.1 x.outdoorPos i.1).2.lastStepTs =
        (Post.fusePositions c.cs s'.post x.pre.currentTs i.2.1 x.outdoorPos i.1).2.lastStepTs ∧
        x.info.lastMotionTs = x'.info.lastMotionTs) ∨ c.cs.useStops = false := by
      rcases hs with hA | hS
      · exact Or.inl ⟨by rw [q3, q4]; exact (h.steps hA).2.2.2, (hl.steps hA).2.2.2.1⟩
      · exact Or.inr hS.1
    obtain ⟨w1, w2, w3⟩ := processed_like c.cs (c.env.allowed lv) q2 _ x.pre.currentTs lv hsp (g t1) (g t1')
    rw [hi.prevGyro] at r1
    rw [hi'.prevGyro] at r1'
    simp only [Result.ok.injEq] at t2 t2'
    rw [← t2, ← t2']
    refine ⟨⟨hl.sensor, hl.signal, hl.buffer, hl.nmea, hl.level, rfl, hl.outdoor, w2, w1, rfl, heading_like r1 r1', fun hA => ?_⟩, rfl⟩
    obtain ⟨y1, y2, y3⟩ := hst hA
    exact ⟨y1, y2, y3, w3 (by rw [q3, q4]; exact (h.steps hA).2.2.2) (hl.steps hA).2.2.2.1⟩
  · rw [if_neg k1] at h1 h2
    have hp : ¬ P .ACCELEROMETER → s.post.lastStepTs = s'.post.lastStepTs := fun hA => (h.steps hA).2.2.2
    by_cases k2 : x.outdoorPos.isEmpty = false
    · rw [if_pos k2] at h1 h2
      simp only [Result.ok.injEq] at h1 h2
      rw [← h1, ← h2]
      exact ⟨⟨hl.sensor, hl.signal, hl.buffer, hl.nmea, hl.level, h.indoor, hl.outdoor, h.post, rfl, rfl, h.heading,
        fun hA => ⟨(hst hA).1, (hst hA).2.1, (hst hA).2.2, hp hA⟩⟩, rfl⟩
    · rw [if_neg k2] at h1 h2
      simp only [Result.ok.injEq] at h1 h2
      rw [← h1, ← h2]
      exact ⟨⟨hl.sensor, hl.signal, hl.buffer, hl.nmea, hl.level, h.indoor, hl.outdoor, h.post, h.position, rfl, h.heading,
        fun hA => ⟨(hst hA).1, (hst hA).2.1, (hst hA).2.2, hp hA⟩⟩, rfl⟩

theorem report_like {c : Cfg} {P : SensorType → Prop} {x x' : Sensed} (hl : XLike P x x') {l l' : Located}
    (h : Like P l.state l'.state) (hst : l.status = l'.status) {o o' : Output} (h1 : report c x l = .ok o) (h2 : report c x' l' = .ok o') :
    unturned o = unturned o' := by
  unfold report at h1 h2
  dsimp only at h1 h2
  rw [← h.position, ← hst, ← hl.radio] at h2
  by_cases k1 : l.state.position.isEmpty = true
  · rw [if_pos k1] at h1 h2
    simp only [Result.ok.injEq] at h1 h2
    rw [← h1, ← h2]
  · rw [if_neg k1] at h1 h2
    by_cases k2 : l.state.position.levelId ≠ ""
    · rw [if_pos k2] at h1 h2
      obtain ⟨lv, g1, g2⟩ := andThen_ok h1
      obtain ⟨lv', g1', g2'⟩ := andThen_ok h2
      rw [g1] at g1'
      simp only [Result.ok.injEq] at g1'
      subst g1'
      obtain ⟨a, f1, f2⟩ := andThen_ok g2
      obtain ⟨a', f1', f2'⟩ := andThen_ok g2'
      rw [f1] at f1'
      simp only [Result.ok.injEq] at f1' f2 f2'
      subst f1'
      rw [← f2, ← f2']
      rfl
    · rw [if_neg k2] at h1 h2
      simp only [Result.ok.injEq] at h1 h2
      rw [← h1, ← h2]
      rfl

theorem runs_like {ls : List Level} {c : Cfg} (hc : Client ls c) {P : SensorType → Prop} (hP : Harmless c.cs P)
    (hs : ¬ P .ACCELEROMETER ∨ StepsIrrelevant c) {ms ms' : List Measurement} (hm : List.Forall₂ (SameBut P) ms ms')
    {s s' : State} (hi : Inv ls c s) (hi' : Inv ls c s') (h : Like P s s') :
    ∃ r outs r' outs', runs c s ms = .ok (r, outs) ∧ runs c s' ms' = .ok (r', outs') ∧ Like P r r' ∧
      outs.map placeOf = outs'.map placeOf ∧
      (¬ P .ACCELEROMETER → outs.map Prod.snd = outs'.map Prod.snd) := by
  induction hm generalizing s s' with
  | nil => exact ⟨s, [], s', [], rfl, rfl, h, rfl, fun _ => rfl⟩
  | @cons m m' ms ms' hmm _ ih =>
    obtain ⟨x, l, o, a1, a2, a3, a4, -, a5, -⟩ := step_defined hc hi m
    obtain ⟨x', l', o', b1, b2, b3, b4, -, b5, -⟩ := step_defined hc hi' m'
    have hx := sense_like hc hP hs h hmm a1 b1
    obtain ⟨hl, hst⟩ := locate_like hs hi hi' h a1 b1 hx a2 b2
    have ho := report_like hx hl hst a3 b3
    obtain ⟨r, outs, r', outs', e1, e2, e3, e4, e5⟩ := ih a5 b5 hl
    refine ⟨r, (o, debugState x l.state) :: outs, r', (o', debugState x' l'.state) :: outs', ?_, ?_, e3, ?_, ?_⟩
    · unfold runs; rw [a4]; simp only [andThen, e1]
    · unfold runs; rw [b4]; simp only [andThen, e2]
    · have q := hl.post
      unfold PostLike at q
      rw [List.map_cons, List.map_cons, e4]
      congr 1
      unfold placeOf debugState
      dsimp only
      rw [ho, q]
    · intro hA
      rw [List.map_cons, List.map_cons, e5 hA]
      congr 1
      have q := hl.post
      unfold PostLike at q
      obtain ⟨-, -, -, -, k1, k2⟩ := hx.steps hA
      unfold debugState
      dsimp only
      rw [k1, k2, q]

theorem like_refl (P : SensorType → Prop) (s : State) : Like P s s :=
  ⟨⟨rfl, Or.inl rfl⟩, rfl, rfl, rfl, rfl, rfl, rfl, rfl, rfl, rfl, rfl, fun _ => ⟨rfl, rfl, rfl, rfl⟩⟩

theorem accepted_like {P : SensorType → Prop} {b b' : List Measurement} (h : List.Forall₂ (SameBut P) b b') (t : Int) :
    List.Forall₂ (SameBut P) (accepted t b) (accepted t b') := by
  induction h generalizing t with
  | nil => exact .nil
  | @cons m m' b b' hm _ ih =>
    have hts : m.ts = m'.ts := by
      rcases hm with rfl | ⟨_, _, _, _, _, _, e⟩
      · rfl
      · exact e
    unfold accepted
    rw [hts]
    split_ifs
    · exact ih t
    · exact .cons hm (ih _)

end Verif.Inertial
