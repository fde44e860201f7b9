import Verif.Same.Spec
import Verif.Same.Bare
import Verif.Bias.Lemmas

/-!
# C130: the two clients, part by part
-/

namespace Verif.Same

open Verif Verif.Levels Verif.Nav
open Verif.Knn (Result)
open Verif.Bias (Rel rel_andThen rel_eq)

variable {a b : CommonSettings}

/-! ## Signals -/

theorem supported_same (h : Agree a b) (col : LevelCollector) (t : RadioType) :
    Radio.isSignalTypeSupported (Radio.mkCfg col b) t = Radio.isSignalTypeSupported (Radio.mkCfg col a) t := by
  simp only [Radio.isSignalTypeSupported, Radio.mkCfg, Radio.checkUseWifi, Radio.checkUseBle, h.signalsToUse]

theorem valid_same (h : Agree a b) (col : LevelCollector) (d : RadioData) :
    Radio.getValidSignalEntry (Radio.mkCfg col b) d = Radio.getValidSignalEntry (Radio.mkCfg col a) d := by
  have h0 : ((Radio.mkCfg col b).useUnknownTxs || ((findLevelByTransmitterId (Radio.mkCfg col b).levelIndex d.id).isSome &&
      Radio.isTransmitterSupported (Radio.mkCfg col b) d.id)) = ((Radio.mkCfg col a).useUnknownTxs ||
      ((findLevelByTransmitterId (Radio.mkCfg col a).levelIndex d.id).isSome && Radio.isTransmitterSupported (Radio.mkCfg col a) d.id)) := by
    have hu : (Radio.mkCfg col b).useUnknownTxs = (Radio.mkCfg col a).useUnknownTxs := h.useUnknownTransmitters
    rw [hu]
    cases hk : (Radio.mkCfg col a).useUnknownTxs with
    | true => rfl
    | false =>
      have ht : (Radio.mkCfg col b).isTracking = (Radio.mkCfg col a).isTracking := h.useTracking hk
      have hl : (Radio.mkCfg col b).levelIndex = (Radio.mkCfg col a).levelIndex := rfl
      unfold Radio.isTransmitterSupported
      rw [ht, hl]
  have hm : (Radio.mkCfg col b).measurementType = .RSSI ↔ (Radio.mkCfg col a).measurementType = .RSSI := h.measurementType.symm
  have hr : (Radio.mkCfg col a).measurementType = .RSSI →
      Radio.isRssiValid (Radio.mkCfg col b) d.rssi = Radio.isRssiValid (Radio.mkCfg col a) d.rssi := by
    intro hk
    have hc : (Radio.mkCfg col b).cutOffRssi = (Radio.mkCfg col a).cutOffRssi := h.sigCutOffRss hk
    unfold Radio.isRssiValid
    rw [hc]
  unfold Radio.getValidSignalEntry
  rw [h0, supported_same h]
  dsimp only
  generalize ((Radio.mkCfg col a).useUnknownTxs || ((findLevelByTransmitterId (Radio.mkCfg col a).levelIndex d.id).isSome &&
    Radio.isTransmitterSupported (Radio.mkCfg col a) d.id)) = v0
  by_cases hk : (Radio.mkCfg col a).measurementType = .RSSI
  · rw [hr hk]
    simp only [ne_eq, hm, hk, not_true, false_and, true_and, if_false]
  · simp only [ne_eq, hm, hk, not_false_eq_true, false_and, true_and, if_false]

theorem buffer_same (h : Agree a b) (hs : a.useStops = true) :
    Radio.createRadioMeasurementBuffer b = Radio.createRadioMeasurementBuffer a := by
  simp only [Radio.createRadioMeasurementBuffer, h.sigAveragingTime, h.sigWindowShift, h.useStops, h.stopDetectionTime hs]

theorem update_same (h : Agree a b) (col : LevelCollector) (s : Radio.State) (m : Measurement) :
    Radio.updateMeasurements (Radio.mkCfg col b) s m = Radio.updateMeasurements (Radio.mkCfg col a) s m := by
  unfold Radio.updateMeasurements
  obtain ⟨data, ts⟩ := m
  cases data with
  | radio d =>
    dsimp only
    rw [valid_same h]
    cases Radio.getValidSignalEntry (Radio.mkCfg col a) d <;> rfl
  | sensor d => rfl
  | nmea d => rfl

/-- The two results are related; both may be missing. -/
def Both {α β : Type} (R : α → β → Prop) (x : Option α) (y : Option β) : Prop :=
  (x = none ∧ y = none) ∨ ∃ u v, x = some u ∧ y = some v ∧ R u v

/-- The same signals, but for what only the altitude is computed from. -/
structure SameRadio (a : CommonSettings) (x y : List RadioData) : Prop where
  bare : y.map (bare 1) = x.map (bare 1)
  altitude : a.useAltitude = true → y = x

theorem distance_same (h : Agree a b) (col : LevelCollector) (m : RadioData) :
    Both (fun u v => bare 1 v = bare 1 u ∧ (a.useAltitude = true → v = u)) (Radio.withDistance (Radio.mkCfg col a) m)
      (Radio.withDistance (Radio.mkCfg col b) m) := by
  have e2 : (Radio.mkCfg col b).levelIndex = (Radio.mkCfg col a).levelIndex := rfl
  unfold Radio.withDistance
  rw [e2]
  by_cases ht : m.type ≠ .WIFI_RTT
  · rw [if_pos ht, if_pos ht]
    split
    · exact .inr ⟨_, _, rfl, rfl, rfl, fun _ => rfl⟩
    · split
      · exact .inl ⟨rfl, rfl⟩
      · split
        · exact .inl ⟨rfl, rfl⟩
        · exact .inr ⟨_, _, rfl, rfl, rfl, fun _ => rfl⟩
  · rw [if_neg ht, if_neg ht]
    refine .inr ⟨_, _, rfl, rfl, rfl, fun hu => ?_⟩
    have e1 : (Radio.mkCfg col b).wiFiRttOffset = (Radio.mkCfg col a).wiFiRttOffset := h.wiFiRttOffset hu
    rw [e1]

theorem distances_same (h : Agree a b) (col : LevelCollector) (l : List RadioData) :
    Both (SameRadio a) (l.mapM (Radio.withDistance (Radio.mkCfg col a))) (l.mapM (Radio.withDistance (Radio.mkCfg col b))) := by
  induction l with
  | nil => exact .inr ⟨[], [], rfl, rfl, rfl, fun _ => rfl⟩
  | cons m l ih =>
    rw [List.mapM_cons, List.mapM_cons]
    rcases distance_same h col m with ⟨e1, e2⟩ | ⟨u, v, e1, e2, e3, e4⟩
    · rw [e1, e2]
      exact .inl ⟨rfl, rfl⟩
    · rcases ih with ⟨f1, f2⟩ | ⟨x, y, f1, f2, f3⟩
      · rw [e1, e2, f1, f2]
        exact .inl ⟨rfl, rfl⟩
      · rw [e1, e2, f1, f2]
        refine .inr ⟨_, _, rfl, rfl, ?_, fun hu => ?_⟩
        · rw [List.map_cons, List.map_cons, e3, f3.bare]
        · rw [e4 hu, f3.altitude hu]

theorem extract_same (h : Agree a b) (col : LevelCollector) (s : Radio.Sorts) (st : Radio.State) (t : Int) :
    Both (SameRadio a) (Radio.extractRadioMeasurements s (Radio.mkCfg col a) st t).1
        (Radio.extractRadioMeasurements s (Radio.mkCfg col b) st t).1 ∧
      (Radio.extractRadioMeasurements s (Radio.mkCfg col b) st t).2 = (Radio.extractRadioMeasurements s (Radio.mkCfg col a) st t).2 := by
  have h1 : Radio.extractMeasurements s (Radio.mkCfg col b).buffer st.buffer t =
      Radio.extractMeasurements s (Radio.mkCfg col a).buffer st.buffer t := by
    by_cases hs : a.useStops = true
    · have : (Radio.mkCfg col b).buffer = (Radio.mkCfg col a).buffer := buffer_same h hs
      rw [this]
    · have e1 : (Radio.mkCfg col b).buffer.shiftMs = (Radio.mkCfg col a).buffer.shiftMs := by
        simp only [Radio.mkCfg, Radio.createRadioMeasurementBuffer, h.sigAveragingTime, h.sigWindowShift]
      have e2 : (Radio.mkCfg col b).buffer.keepMs = (Radio.mkCfg col a).buffer.keepMs := by
        simp only [Radio.mkCfg, Radio.createRadioMeasurementBuffer, h.sigAveragingTime, h.sigWindowShift]
      have e0 : a.useStops = false := by simpa using hs
      have e3 : (Radio.mkCfg col a).buffer.useStops = false := e0
      have e4 : (Radio.mkCfg col b).buffer.useStops = false := h.useStops.trans e3
      unfold Radio.extractMeasurements
      simp only [e1, e2, e3, e4, Bool.false_and]
  have h2 : ∀ l, Radio.closestAps s (Radio.mkCfg col b) l = Radio.closestAps s (Radio.mkCfg col a) l := by
    intro l
    have e1 : (Radio.mkCfg col b).useClosestAps = (Radio.mkCfg col a).useClosestAps := h.useClosestAps
    unfold Radio.closestAps
    rw [e1]
    cases hk : (Radio.mkCfg col a).useClosestAps with
    | false => rfl
    | true =>
      have e2 : (Radio.mkCfg col b).numClosestAps = (Radio.mkCfg col a).numClosestAps := h.numClosestAps hk
      rw [e2]
  unfold Radio.extractRadioMeasurements
  dsimp only
  rw [h1, h2]
  exact ⟨distances_same h col _, rfl⟩

/-! ## Sensors, satellites -/

theorem displacement_same (h : Agree a b) (s : Fusion.FusionState) (m : SensorMeasurement) (t : Int) :
    Fusion.calculateDisplacement (Fusion.fusionConfig b) s m t = Fusion.calculateDisplacement (Fusion.fusionConfig a) s m t := by
  by_cases hu : a.useCalculatedAzimuth = true
  · have e1 : (Fusion.fusionConfig b).useCalcAzimuth = true := h.useCalculatedAzimuth.trans hu
    have e2 : (Fusion.fusionConfig a).useCalcAzimuth = true := hu
    have e3 : (Fusion.fusionConfig b).stepMultiplier = (Fusion.fusionConfig a).stepMultiplier := h.stepMultiplier
    have e4 : ∀ s, Fusion.cfUpdate (Fusion.fusionConfig b).cf s m = Fusion.cfUpdate (Fusion.fusionConfig a).cf s m := fun s => rfl
    unfold Fusion.calculateDisplacement
    simp only [e1, e2, e3, e4, if_true]
  · have : Fusion.fusionConfig b = Fusion.fusionConfig a := by
      have hf : a.useCalculatedAzimuth = false := by simpa using hu
      simp only [Fusion.fusionConfig, h.useCalculatedAzimuth, h.stepMultiplier, h.deviceAzimuthLifetimeSeconds hf]
    rw [this]

/-- The two outdoor estimators hold the same, apart from the buffer of a sigma filter that is not in use. -/
structure SameOutdoor (a : CommonSettings) (p q : Estim.OutdoorState) : Prop where
  last : q.last = p.last
  buf : a.useGpsSigmaFilter = true → q.buf = p.buf

theorem levels_same (h : Agree a b) {p q : Estim.OutdoorState} (hp : SameOutdoor a p q) (g : Estim.GpsPosition) (sats : Int)
    (ls : List Level) : Both (fun r r' => r'.1 = r.1 ∧ SameOutdoor a r.2 r'.2) (Estim.outdoorLevels a p g sats ls)
      (Estim.outdoorLevels b q g sats ls) := by
  induction ls with
  | nil => exact .inr ⟨_, _, rfl, rfl, rfl, hp⟩
  | cons l ls ih =>
    have hc : ∀ pt : Geo.XYPoint, Both (fun r r' => r'.1 = r.1 ∧ (a.useGpsSigmaFilter = true → r'.2 = r.2))
        (if a.useGpsSigmaFilter then Estim.sigmaAdd a.sigmaFilterWindow a.sigmaFilterDelta p.buf pt else some (true, p.buf))
        (if b.useGpsSigmaFilter then Estim.sigmaAdd b.sigmaFilterWindow b.sigmaFilterDelta q.buf pt else some (true, q.buf)) := by
      intro pt
      rw [h.useGpsSigmaFilter]
      by_cases hk : a.useGpsSigmaFilter = true
      · rw [if_pos hk, if_pos hk, h.sigmaFilterWindow hk, h.sigmaFilterDelta hk, hp.buf hk]
        cases Estim.sigmaAdd a.sigmaFilterWindow a.sigmaFilterDelta p.buf pt with
        | none => exact .inl ⟨rfl, rfl⟩
        | some r => exact .inr ⟨_, _, rfl, rfl, rfl, fun _ => rfl⟩
      · rw [if_neg hk, if_neg hk]
        exact .inr ⟨_, _, rfl, rfl, rfl, fun hk' => absurd hk' hk⟩
    have hc' : ∀ (P : Prop) [Decidable P] (pt : Geo.XYPoint), Both (fun r r' => r'.1 = r.1 ∧ (a.useGpsSigmaFilter = true → r'.2 = r.2))
        (if P then (if a.useGpsSigmaFilter then Estim.sigmaAdd a.sigmaFilterWindow a.sigmaFilterDelta p.buf pt else some (true, p.buf))
          else some (true, p.buf))
        (if P then (if b.useGpsSigmaFilter then Estim.sigmaAdd b.sigmaFilterWindow b.sigmaFilterDelta q.buf pt else some (true, q.buf))
          else some (true, q.buf)) := by
      intro P _ pt
      by_cases hP : P
      · rw [if_pos hP, if_pos hP]
        exact hc pt
      · rw [if_neg hP, if_neg hP]
        exact .inr ⟨_, _, rfl, rfl, rfl, hp.buf⟩
    unfold Estim.outdoorLevels
    dsimp only
    rw [h.useGpsOutsideMap, h.minNumSats, hp.last]
    by_cases h1 : Estim.Box.Covers l.geometry.boundingBox (Geo.gpsToLocal ⟨g.latitude, g.longitude⟩ l.bindingPoint) ∨
        a.useGpsOutsideMap = true
    · rw [if_pos h1, if_pos h1]
      rcases hc' (g.ts ≠ p.last.ts) (Geo.gpsToLocal ⟨g.latitude, g.longitude⟩ l.bindingPoint) with ⟨e1, e2⟩ | ⟨u, v, e1, e2, e3, e4⟩
      · rw [e1, e2]
        exact .inl ⟨rfl, rfl⟩
      · rw [e1, e2]
        obtain ⟨u1, u2⟩ := u
        obtain ⟨v1, v2⟩ := v
        dsimp only at e3 e4
        subst e3
        dsimp only
        split_ifs
        · exact .inr ⟨_, _, rfl, rfl, rfl, rfl, e4⟩
        · exact .inr ⟨_, _, rfl, rfl, rfl, rfl, e4⟩
    · rw [if_neg h1, if_neg h1]
      exact ih

theorem outdoor_same (h : Agree a b) (c : LevelCollector) {p q : Estim.OutdoorState} (hp : SameOutdoor a p q) (ts : Int)
    (sensor : SensorMeasurement) (nmea : NmeaMeasurement) (flag : Bool) :
    Both (fun r r' => r'.1 = r.1 ∧ SameOutdoor a r.2 r'.2) (Estim.outdoorPosition a c p ts sensor nmea flag)
      (Estim.outdoorPosition b c q ts sensor nmea flag) := by
  have he : Estim.extractGpsPosition b ts sensor = Estim.extractGpsPosition a ts sensor := by
    simp only [Estim.extractGpsPosition, h.minGpsDeviation]
  have hq : ∀ (P Q : Prop) (_ : Decidable P) (_ : Decidable Q), (a.useGpsSigmaFilter = true → (P ↔ Q)) →
      SameOutdoor a (if P then { p with buf := [] } else p) (if Q then { q with buf := [] } else q) := by
    intro P Q _ _ hPQ
    constructor
    · split_ifs <;> exact hp.last
    · intro hk
      by_cases hQ : Q
      · rw [if_pos hQ, if_pos ((hPQ hk).mpr hQ)]
      · rw [if_neg hQ, if_neg (mt (hPQ hk).mp hQ)]
        exact hp.buf hk
  have hnone : ∀ (p' q' : Estim.OutdoorState), SameOutdoor a p' q' → open Classical in
      Both (fun r r' => r'.1 = r.1 ∧ SameOutdoor a r.2 r'.2)
        (if ((ts - p'.last.ts : Int) : ℝ) / 1000 > a.gpsValidTimeWindowSec then some (Position.default, p') else some (p'.last, p'))
        (if ((ts - q'.last.ts : Int) : ℝ) / 1000 > a.gpsValidTimeWindowSec then some (Position.default, q') else some (q'.last, q')) := by
    intro p' q' hpq
    rw [hpq.last]
    split_ifs
    · exact .inr ⟨_, _, rfl, rfl, rfl, hpq⟩
    · exact .inr ⟨_, _, rfl, rfl, rfl, hpq⟩
  unfold Estim.outdoorPosition
  rw [he]
  cases Estim.extractGpsPosition a ts sensor with
  | none =>
    dsimp only
    rw [h.gpsValidTimeWindowSec]
    exact hnone _ _ (hq _ _ _ _ (fun _ => Iff.rfl))
  | some g =>
    dsimp only
    refine levels_same h (hq _ _ _ _ ?_) g _ _
    intro hk
    rw [h.maxGpsDeviation hk]

/-! ## Post-processing -/

/-- The two postprocessors hold the same, apart from what the settings keep from being read. -/
structure SamePost (a : CommonSettings) (p q : Post.PostState) : Prop where
  indoorDev : a.useGps = true → q.indoorDev = p.indoorDev
  outdoorDev : a.useGps = true → q.outdoorDev = p.outdoorDev
  time : q.time = p.time
  smoother : a.useSmoothing = true → q.smoother = p.smoother
  indoorPos : q.indoorPos = p.indoorPos
  outdoorPos : q.outdoorPos = p.outdoorPos
  lastOut : q.lastOut = p.lastOut
  lastExtractionTs : q.lastExtractionTs = p.lastExtractionTs
  lastStepTs : q.lastStepTs = p.lastStepTs

theorem init_same (h : Agree a b) : SamePost a (Post.postInit a) (Post.postInit b) where
  indoorDev hg := h.priorDeviation hg
  outdoorDev hg := h.priorDeviation hg
  time := rfl
  smoother hs := by
    simp only [Post.postInit, h.useAbFilter hs]
    split_ifs with hab
    · simp only [Smooth.abParams, h.smoothing hs, h.useBarriers hs, h.useSpeedConstraint hs hab, h.useAccuracyForSmoothing hs hab]
    · simp only [Smooth.lsParams, h.smoothing hs, h.useBarriers hs, h.sigAveragingTime, h.sigWindowShift]
  indoorPos := rfl
  outdoorPos := rfl
  lastOut := rfl
  lastExtractionTs := rfl
  lastStepTs := rfl

theorem fillIndoor_same (h : Agree a b) {p q : Post.PostState} (hp : SamePost a p q) (pos : Position) :
    SamePost a (Post.fillIndoor a p pos) (Post.fillIndoor b q pos) := by
  unfold Post.fillIndoor
  split_ifs
  · exact hp
  · refine ⟨?_, hp.outdoorDev, hp.time, hp.smoother, rfl, hp.outdoorPos, hp.lastOut, hp.lastExtractionTs, hp.lastStepTs⟩
    intro hg
    simp only [Post.priorDev, hp.indoorPos, hp.indoorDev hg, h.priorDeviation hg, h.averageMovSpeed hg]

theorem fillOutdoor_same (h : Agree a b) {p q : Post.PostState} (hp : SamePost a p q) (pos : Position) :
    SamePost a (Post.fillOutdoor a p pos) (Post.fillOutdoor b q pos) := by
  unfold Post.fillOutdoor
  split_ifs
  · exact hp
  · refine ⟨hp.indoorDev, ?_, hp.time, hp.smoother, hp.indoorPos, rfl, hp.lastOut, hp.lastExtractionTs, hp.lastStepTs⟩
    intro hg
    simp only [Post.priorDev, hp.outdoorPos, hp.outdoorDev hg, h.priorDeviation hg, h.averageMovSpeed hg]

theorem fuse_same (h : Agree a b) {p q : Post.PostState} (hp : SamePost a p q) (t : Int) (indoor outdoor : Position)
    (status : NavigationStatus) :
    (Post.fusePositions b q t indoor outdoor status).1 = (Post.fusePositions a p t indoor outdoor status).1 ∧
      SamePost a (Post.fusePositions a p t indoor outdoor status).2 (Post.fusePositions b q t indoor outdoor status).2 := by
  have hs := fillOutdoor_same h (fillIndoor_same h hp indoor) outdoor
  refine ⟨?_, hs⟩
  have hin : indoor.isEmpty = false → (Post.fillOutdoor a (Post.fillIndoor a p indoor) outdoor).indoorPos = indoor := by
    intro he
    unfold Post.fillOutdoor Post.fillIndoor
    rw [he]
    split_ifs <;> simp_all
  show Post.chooseFused b _ t indoor outdoor status = Post.chooseFused a _ t indoor outdoor status
  generalize Post.fillOutdoor a (Post.fillIndoor a p indoor) outdoor = p' at hs hin
  generalize Post.fillOutdoor b (Post.fillIndoor b q indoor) outdoor = q' at hs
  unfold Post.chooseFused
  by_cases hg : a.useGps = true
  · have hb : b.useGps = true := h.useGps.trans hg
    simp only [h.useInstantGpsPosition, h.preferIndoorSolution hg, h.useGps, hs.outdoorPos, hs.indoorPos, h.positionIsTooOldSec hg,
      h.averageMovSpeed hg, h.fuseGps hg, hs.indoorDev hg, hs.outdoorDev hg]
    by_cases hf : a.fuseGps = true
    · simp only [h.fuseGpsBorderM hg hf]
    · simp only [hf, false_and, if_false, Bool.false_eq_true]
  · have ha : a.useGps = false := by simpa using hg
    have hb : b.useGps = false := h.useGps.trans ha
    simp only [h.useInstantGpsPosition, ha, hb, true_or, if_true, hs.indoorPos]
    split_ifs with h1 h2 h3 h3
    · rfl
    · rfl
    · exact (hin h2.2.1).symm
    · exact hin h3.2.1
    · rfl

theorem smoothing_same (h : Agree a b) {p q : Post.PostState} (hp : SamePost a p q) (allowed : ℝ → ℝ → Prop) (fused : Position)
    (t : Int) :
    (Post.smoothing a allowed p fused t = none ∧ Post.smoothing b allowed q fused t = none) ∨
      ∃ r r', Post.smoothing a allowed p fused t = some r ∧ Post.smoothing b allowed q fused t = some r' ∧ r'.1 = r.1 ∧
        SamePost a r.2 r'.2 := by
  obtain ⟨h1, h2, h3, h4, h5, h6, h7, h8, h9⟩ := hp
  have hfin : ∀ (pos : Position) (u v : Post.PostState), SamePost a u v →
      (if b.useTimeSmoothing then ((Smooth.timeSmooth v.time pos t).1, { v with time := (Smooth.timeSmooth v.time pos t).2 })
        else (pos, v)).1 =
      (if a.useTimeSmoothing then ((Smooth.timeSmooth u.time pos t).1, { u with time := (Smooth.timeSmooth u.time pos t).2 })
        else (pos, u)).1 ∧
      SamePost a (if a.useTimeSmoothing then ((Smooth.timeSmooth u.time pos t).1, { u with time := (Smooth.timeSmooth u.time pos t).2 })
        else (pos, u)).2
        (if b.useTimeSmoothing then ((Smooth.timeSmooth v.time pos t).1, { v with time := (Smooth.timeSmooth v.time pos t).2 })
        else (pos, v)).2 := by
    intro pos u v huv
    rw [h.useTimeSmoothing]
    split_ifs
    · dsimp only
      rw [huv.time]
      exact ⟨rfl, huv.indoorDev, huv.outdoorDev, rfl, huv.smoother, huv.indoorPos, huv.outdoorPos, huv.lastOut, huv.lastExtractionTs,
        huv.lastStepTs⟩
    · exact ⟨rfl, huv⟩
  unfold Post.smoothing
  by_cases hs : a.useSmoothing = true
  · have hb : b.useSmoothing = true := h.useSmoothing.trans hs
    have e : (if q.lastOut.levelId ≠ fused.levelId then q.smoother.reset fused else q.smoother) =
        (if p.lastOut.levelId ≠ fused.levelId then p.smoother.reset fused else p.smoother) := by rw [h7, h4 hs]
    dsimp only
    rw [if_pos hs, if_pos hb, e]
    generalize (if p.lastOut.levelId ≠ fused.levelId then p.smoother.reset fused else p.smoother) = sm
    cases hsm : sm.smooth allowed fused with
    | none => exact .inl ⟨rfl, rfl⟩
    | some r =>
      refine .inr ⟨_, _, rfl, rfl, ?_⟩
      exact hfin r.1 { p with smoother := r.2 } { q with smoother := r.2 } ⟨h1, h2, h3, fun _ => rfl, h5, h6, h7, h8, h9⟩
  · have ha : a.useSmoothing = false := by simpa using hs
    have hb : b.useSmoothing = false := h.useSmoothing.trans ha
    simp only [ha, hb, if_false, Bool.false_eq_true]
    refine .inr ⟨_, _, rfl, rfl, ?_⟩
    exact hfin fused p q ⟨h1, h2, h3, h4, h5, h6, h7, h8, h9⟩

theorem takeOver_same (h : Agree a b) {p q : Post.PostState} (hp : SamePost a p q) (pos : Position) (t : Int) :
    SamePost a (Post.takeOver a p pos t) (Post.takeOver b q pos t) := by
  by_cases hs : a.useStops = true
  · unfold Post.takeOver Post.stopDetected
    dsimp only
    rw [h.useStops, h.stopDetectionTime hs, h.stopUpdateTime hs, h.stopsDistance hs, hp.lastOut, hp.lastExtractionTs, hp.lastStepTs,
      hp.indoorPos]
    split_ifs
    · exact ⟨hp.indoorDev, hp.outdoorDev, hp.time, hp.smoother, rfl, hp.outdoorPos, rfl, rfl, rfl⟩
    · exact ⟨hp.indoorDev, hp.outdoorDev, hp.time, hp.smoother, rfl, hp.outdoorPos, rfl, rfl, rfl⟩
    · exact ⟨hp.indoorDev, hp.outdoorDev, hp.time, hp.smoother, rfl, hp.outdoorPos, rfl, rfl, rfl⟩
  · have hb : ¬ b.useStops = true := by rw [h.useStops]; exact hs
    unfold Post.takeOver
    simp only [hs, hb, false_and, if_false, hp.indoorPos, Bool.false_eq_true]
    exact ⟨hp.indoorDev, hp.outdoorDev, hp.time, hp.smoother, rfl, hp.outdoorPos, rfl, hp.lastExtractionTs, hp.lastStepTs⟩

theorem snap_same (h : Agree a b) (level : Level) (pos : Position) : Post.snapToGraph b level pos = Post.snapToGraph a level pos := by
  by_cases hs : a.useGraphProjection = true
  · unfold Post.snapToGraph
    simp only [h.useGraphProjection, h.graphProjDist hs]
  · have hb : ¬ b.useGraphProjection = true := by rw [h.useGraphProjection]; exact hs
    unfold Post.snapToGraph
    rw [if_neg hs, if_neg hb]

theorem processed_same (h : Agree a b) {p q : Post.PostState} (hp : SamePost a p q) (allowed : ℝ → ℝ → Prop) (fused : Position)
    (t motion : Int) (level : Level) :
    Rel (fun r r' => r'.1 = r.1 ∧ SamePost a r.2 r'.2) (orUndefined (Post.getProcessedPosition a allowed p fused t motion level))
      (orUndefined (Post.getProcessedPosition b allowed q fused t motion level)) := by
  have hp' : SamePost a (if motion > 0 then { p with lastStepTs := motion } else p) (if motion > 0 then { q with lastStepTs := motion } else q) := by
    split_ifs
    · exact ⟨hp.indoorDev, hp.outdoorDev, hp.time, hp.smoother, hp.indoorPos, hp.outdoorPos, hp.lastOut, hp.lastExtractionTs, rfl⟩
    · exact hp
  have hi : Post.isInsideMap b fused level = Post.isInsideMap a fused level := by
    unfold Post.isInsideMap
    rw [h.useGpsOutsideMap]
  unfold Post.getProcessedPosition
  dsimp only
  generalize (if motion > 0 then { p with lastStepTs := motion } else p) = p' at hp'
  generalize (if motion > 0 then { q with lastStepTs := motion } else q) = q' at hp'
  rw [hi, h.deadReckoningTime]
  split_ifs
  · exact ⟨rfl, hp'⟩
  · exact ⟨rfl, hp'⟩
  · rcases smoothing_same h hp' allowed fused t with ⟨h1, h2⟩ | ⟨r, r', h1, h2, h3, h4⟩
    · rw [h1, h2]; trivial
    · rw [h1, h2]
      have ht := takeOver_same h h4 r.1 t
      simp only [Option.bind_some, h3, ht.lastOut, snap_same h]
      cases Post.snapToGraph a level (Post.takeOver a r.2 r.1 t).lastOut with
      | none => trivial
      | some o =>
        exact ⟨rfl, ht.indoorDev, ht.outdoorDev, ht.time, ht.smoother, ht.indoorPos, ht.outdoorPos, rfl, ht.lastExtractionTs, ht.lastStepTs⟩
  · exact ⟨rfl, hp'⟩

end Verif.Same
