import Verif.Shift.Sensors
import Verif.Post.Model
import Verif.Radio.Model
import Verif.Knn.Model

/-!
# Moving the time: preprocessor, estimators, post-processor

Helper for C116.
-/

namespace Verif.Shift

open Verif Verif.Levels Verif.Smooth
open Verif.Geo (XYPoint)
open Verif.Post (PostState)
open Verif.Knn (Result)

/-! ## Preprocessor -/

/-- The two sorts of the preprocessor only compare: later time stamps do not change the order they choose. -/
structure Blind (δ : Int) (s : Radio.Sorts) : Prop where
  byId : ∀ l, s.byId (l.map (fun m => ⟨m.data, m.ts + δ⟩)) = (s.byId l).map (fun m => ⟨m.data, m.ts + δ⟩)
  byTs : ∀ l, s.byTs (l.map (fun m => ⟨m.data, m.ts + δ⟩)) = (s.byTs l).map (fun m => ⟨m.data, m.ts + δ⟩)

variable (L δ : Int)

/-- A moved buffer. -/
def shBuf (b : Radio.BufferState) : Radio.BufferState :=
  ⟨sh L δ b.lastExtractionTs, sh L δ b.currentTs, sh L δ b.lastStepTs, b.measurements.map (shS L δ)⟩

/-- All time stamps of the buffer are late enough, or initial. -/
structure BufOk (b : Radio.BufferState) : Prop where
  measurements : ∀ m ∈ b.measurements, L ≤ m.ts
  times : (b.currentTs = 0 ∧ b.lastExtractionTs = 0 ∧ b.measurements = []) ∨ (L ≤ b.currentTs ∧ L ≤ b.lastExtractionTs)
  step : Mem L 0 b.lastStepTs

/-- A moved preprocessor. -/
def shPre (s : Radio.State) : Radio.State :=
  ⟨sh L δ s.lastSignalTs, shBuf L δ s.buffer, sh L δ s.currentTs, shS L δ s.sensor, shS L δ s.nmea⟩

/-- All time stamps of the preprocessor are late enough, or initial. -/
structure PreOk (s : Radio.State) : Prop where
  signal : L ≤ s.lastSignalTs
  buffer : BufOk L s.buffer
  sensor : L ≤ s.sensor.ts

variable {L δ}

theorem add_sh (hL : 0 < L) (hδ : 0 ≤ δ) (cfg : Radio.BufferCfg) {b : Radio.BufferState} (h : BufOk L b)
    {m : RadioMeasurement} (hm : L ≤ m.ts) :
    Radio.addMeasurement cfg (shBuf L δ b) (shS L δ m) = shBuf L δ (Radio.addMeasurement cfg b m) ∧
      BufOk L (Radio.addMeasurement cfg b m) := by
  unfold Radio.addMeasurement
  have e : (shBuf L δ b).currentTs = 0 ↔ b.currentTs = 0 := sh_zero hL hδ
  dsimp only
  by_cases hz : b.currentTs = 0
  · rw [if_pos (e.mpr hz), if_pos hz]
    refine ⟨by simp [shBuf, shS], ⟨?_, Or.inr ⟨hm, hm⟩, h.step⟩⟩
    intro x hx
    rcases List.mem_append.mp hx with hx | hx
    · exact h.measurements x hx
    · rw [List.mem_singleton] at hx; rw [hx]; exact hm
  · rw [if_neg (fun h => hz (e.mp h)), if_neg hz]
    refine ⟨by simp [shBuf, shS], ⟨?_, Or.inr ⟨hm, ?_⟩, h.step⟩⟩
    · intro x hx
      rcases List.mem_append.mp hx with hx | hx
      · exact h.measurements x hx
      · rw [List.mem_singleton] at hx; rw [hx]; exact hm
    · rcases h.times with h1 | h1
      · exact absurd h1.1 hz
      · exact h1.2

theorem averageLoop_sh (l : List RadioMeasurement) : Radio.averageLoop (l.map (shS L δ)) = Radio.averageLoop l := by
  induction hn : l.length using Nat.strong_induction_on generalizing l with
  | _ n ih =>
    cases l with
    | nil => simp [Radio.averageLoop]
    | cons x xs =>
      rw [List.map_cons, Radio.averageLoop, Radio.averageLoop]
      have ed : ∀ m : RadioMeasurement, (shS L δ m).data = m.data := fun m => rfl
      rw [List.takeWhile_map, List.dropWhile_map]
      have ec : ((fun m : RadioMeasurement => !decide ((shS L δ x).data.id < m.data.id)) ∘ shS L δ) =
          (fun m => !decide (x.data.id < m.data.id)) := by
        funext m; simp [ed]
      rw [ec]
      congr 1
      · unfold Radio.averageRange
        simp only [List.foldl_cons, List.foldl_map, ed, List.length_cons, List.length_map]
      · refine ih _ ?_ _ rfl
        rw [← hn, List.length_cons]
        exact Nat.lt_succ_of_le (List.dropWhile_suffix _).length_le

theorem map_shS {D : Type} {l : List (Stamped D)} (h : ∀ m ∈ l, L ≤ m.ts) :
    l.map (shS L δ) = l.map (fun m => ⟨m.data, m.ts + δ⟩) :=
  List.map_congr_left (fun m hm => by rw [shS, sh_real (h m hm)])

theorem extract_sh (hL : 0 < L) (hδ : 0 ≤ δ) {s : Radio.Sorts} (hs : s.Lawful) (hb : Blind δ s) (cfg : Radio.BufferCfg)
    {b : Radio.BufferState} (h : BufOk L b) {last : Int} (hl : Mem L 0 last) :
    (Radio.extractMeasurements s cfg (shBuf L δ b) (sh L δ last)).1 = (Radio.extractMeasurements s cfg b last).1 ∧
    (Radio.extractMeasurements s cfg (shBuf L δ b) (sh L δ last)).2 = shBuf L δ (Radio.extractMeasurements s cfg b last).2 ∧
      BufOk L (Radio.extractMeasurements s cfg b last).2 := by
  unfold Radio.extractMeasurements
  have h1 : (if sh L δ last > 0 then { shBuf L δ b with lastStepTs := sh L δ last } else shBuf L δ b) =
      shBuf L δ (if last > 0 then { b with lastStepTs := last } else b) := by
    by_cases hp : last > 0
    · rw [if_pos ((sh_pos hL hδ).mpr hp), if_pos hp]; rfl
    · rw [if_neg (fun h => hp ((sh_pos hL hδ).mp h)), if_neg hp]
  have h2 : BufOk L (if last > 0 then { b with lastStepTs := last } else b) := by
    by_cases hp : last > 0
    · rw [if_pos hp]; exact ⟨h.measurements, h.times, hl⟩
    · rw [if_neg hp]; exact h
  rw [h1]
  generalize (if last > 0 then { b with lastStepTs := last } else b) = b1 at h2 ⊢
  have hid : ∀ {l : List RadioMeasurement}, (∀ m ∈ l, L ≤ m.ts) → s.byId (l.map (shS L δ)) = (s.byId l).map (shS L δ) := by
    intro l hl
    rw [map_shS hl, hb.byId]
    exact (map_shS (fun m hm => hl m ((hs.byId.perm l).mem_iff.mp hm))).symm
  have hts : ∀ {l : List RadioMeasurement}, (∀ m ∈ l, L ≤ m.ts) → s.byTs (l.map (shS L δ)) = (s.byTs l).map (shS L δ) := by
    intro l hl
    rw [map_shS hl, hb.byTs]
    exact (map_shS (fun m hm => hl m ((hs.byTs.perm l).mem_iff.mp hm))).symm
  have d1 : (shBuf L δ b1).currentTs - (shBuf L δ b1).lastExtractionTs = b1.currentTs - b1.lastExtractionTs := by
    rcases h2.times with ⟨z1, z2, -⟩ | ⟨z1, z2⟩
    · change sh L δ _ - sh L δ _ = _
      rw [z1, z2, sh_old hL le_rfl]
    · exact sh_sub z1 z2
  dsimp only
  rw [d1]
  by_cases hg : b1.currentTs - b1.lastExtractionTs < cfg.shiftMs
  · rw [if_pos hg, if_pos hg]; exact ⟨rfl, rfl, h2⟩
  rw [if_neg hg, if_neg hg]
  have em : (shBuf L δ b1).measurements = b1.measurements.map (shS L δ) := rfl
  rw [em, hid h2.measurements, averageLoop_sh]
  have hmem : ∀ m ∈ s.byId b1.measurements, L ≤ m.ts := fun m hm => h2.measurements m ((hs.byId.perm _).mem_iff.mp hm)
  rcases h2.times with ⟨z1, z2, z3⟩ | ⟨z1, z2⟩
  · have zi : s.byId [] = [] := (hs.byId.perm []).eq_nil
    have zt : s.byTs [] = [] := (hs.byTs.perm []).eq_nil
    simp only [z3, zi, List.map_nil, zt, List.dropWhile_nil]
    have q : ∀ P Q : Prop, ∀ [Decidable P] [Decidable Q], ∀ (o : List RadioData) (b : Radio.BufferState),
        (if P then (o, b) else if Q then (o, b) else (o, b)) = (o, b) := by
      intro P Q _ _ o b; split_ifs <;> rfl
    have hz : sh L δ b1.currentTs = b1.currentTs := by rw [z1, sh_old hL le_rfl]
    have w1 : ∀ b' : Radio.BufferState, b'.measurements = [] → { b' with measurements := [] } = b' := by
      rintro ⟨a, b, c, d⟩ h; cases h; rfl
    split_ifs <;> exact ⟨rfl, rfl, ⟨by simp, Or.inl ⟨z1, z1, rfl⟩, h2.step⟩⟩
  · have p1 : (shBuf L δ b1).lastStepTs > 0 ↔ b1.lastStepTs > 0 := sh_pos hL hδ
    have p2 : (b1.lastStepTs > 0) → ((shBuf L δ b1).currentTs - (shBuf L δ b1).lastStepTs = b1.currentTs - b1.lastStepTs) := by
      intro hp
      exact sh_sub z1 (h2.step.resolve_left (by omega))
    have c1 : (cfg.useStops && decide ((shBuf L δ b1).lastStepTs > 0) &&
          decide ((shBuf L δ b1).currentTs - (shBuf L δ b1).lastStepTs > cfg.stopMs)) =
        (cfg.useStops && decide (b1.lastStepTs > 0) && decide (b1.currentTs - b1.lastStepTs > cfg.stopMs)) := by
      by_cases hp : b1.lastStepTs > 0
      · simp only [p1, p2 hp]
      · simp only [p1, hp, decide_false, Bool.and_false, Bool.false_and]
    rw [c1]
    have ok1 : BufOk L { b1 with lastExtractionTs := b1.currentTs, measurements := s.byId b1.measurements } :=
      ⟨hmem, Or.inr ⟨z1, z1⟩, h2.step⟩
    by_cases hc : (cfg.useStops && decide (b1.lastStepTs > 0) && decide (b1.currentTs - b1.lastStepTs > cfg.stopMs)) = true
    · rw [if_pos hc, if_pos hc]; exact ⟨rfl, rfl, ok1⟩
    · rw [if_neg hc, if_neg hc]
      by_cases hk : cfg.keepMs = 0
      · rw [if_pos hk, if_pos hk]
        exact ⟨rfl, rfl, ⟨by simp, Or.inr ⟨z1, z1⟩, h2.step⟩⟩
      · rw [if_neg hk, if_neg hk]
        refine ⟨rfl, ?_, ⟨?_, Or.inr ⟨z1, z1⟩, h2.step⟩⟩
        · rw [hts hmem, List.dropWhile_map]
          have ex : (s.byTs (s.byId b1.measurements)).dropWhile
                ((fun rm : RadioMeasurement => !decide (rm.ts ≥ (shBuf L δ b1).currentTs - cfg.keepMs)) ∘ shS L δ) =
              (s.byTs (s.byId b1.measurements)).dropWhile (fun rm => !decide (rm.ts ≥ b1.currentTs - cfg.keepMs)) := by
            have : ∀ l : List RadioMeasurement, (∀ m ∈ l, L ≤ m.ts) →
                l.dropWhile ((fun rm : RadioMeasurement => !decide (rm.ts ≥ (shBuf L δ b1).currentTs - cfg.keepMs)) ∘ shS L δ) =
                l.dropWhile (fun rm => !decide (rm.ts ≥ b1.currentTs - cfg.keepMs)) := by
              intro l hl
              induction l with
              | nil => rfl
              | cons m l ih =>
                have e : ((fun rm : RadioMeasurement => !decide (rm.ts ≥ (shBuf L δ b1).currentTs - cfg.keepMs)) ∘ shS L δ) m =
                    !decide (m.ts ≥ b1.currentTs - cfg.keepMs) := by
                  have e1 : (shS L δ m).ts = m.ts + δ := sh_real (hl m List.mem_cons_self)
                  have e2 : (shBuf L δ b1).currentTs = b1.currentTs + δ := sh_real z1
                  simp only [Function.comp, e1, e2]
                  congr 1
                  exact decide_eq_decide.mpr (by omega)
                rw [List.dropWhile_cons, List.dropWhile_cons, e, ih (fun m hm => hl m (List.mem_cons_of_mem _ hm))]
            exact this _ (fun m hm => hmem m ((hs.byTs.perm _).mem_iff.mp hm))
          rw [ex]
          rfl
        · intro m hm
          exact hmem m ((hs.byTs.perm _).mem_iff.mp ((List.dropWhile_sublist _).mem hm))

theorem updateMeasurements_sh (hL : 0 < L) (hδ : 0 ≤ δ) (cfg : Radio.Cfg) {s : Radio.State} (h : PreOk L s)
    {m : Measurement} (hm : L ≤ m.ts) :
    Radio.updateMeasurements cfg (shPre L δ s) (shS L δ m) = shPre L δ (Radio.updateMeasurements cfg s m) ∧
      PreOk L (Radio.updateMeasurements cfg s m) ∧ (Radio.updateMeasurements cfg s m).currentTs = m.ts := by
  obtain ⟨data, ts⟩ := m
  unfold Radio.updateMeasurements
  cases data with
  | radio d =>
    dsimp only [shS]
    cases Radio.getValidSignalEntry cfg d with
    | none => exact ⟨rfl, ⟨h.signal, h.buffer, h.sensor⟩, rfl⟩
    | some v =>
      obtain ⟨a1, a2⟩ := add_sh (δ := δ) hL hδ cfg.buffer h.buffer (m := ⟨v, ts⟩) hm
      refine ⟨?_, ⟨hm, a2, h.sensor⟩, rfl⟩
      have e : Radio.addMeasurement cfg.buffer (shBuf L δ s.buffer) ⟨v, sh L δ ts⟩ = _ := a1
      dsimp only
      rw [show (shPre L δ s).buffer = shBuf L δ s.buffer from rfl, e]
      rfl
  | sensor d => exact ⟨rfl, ⟨h.signal, h.buffer, hm⟩, rfl⟩
  | nmea d => exact ⟨rfl, ⟨h.signal, h.buffer, h.sensor⟩, rfl⟩

theorem extractRadio_sh (hL : 0 < L) (hδ : 0 ≤ δ) {s : Radio.Sorts} (hs : s.Lawful) (hb : Blind δ s) (cfg : Radio.Cfg)
    {st : Radio.State} (h : PreOk L st) {last : Int} (hl : Mem L 0 last) :
    Radio.extractRadioMeasurements s cfg (shPre L δ st) (sh L δ last) =
        ((Radio.extractRadioMeasurements s cfg st last).1, shPre L δ (Radio.extractRadioMeasurements s cfg st last).2) ∧
      PreOk L (Radio.extractRadioMeasurements s cfg st last).2 := by
  obtain ⟨e1, e2, e3⟩ := extract_sh hL hδ hs hb cfg.buffer h.buffer hl
  unfold Radio.extractRadioMeasurements
  dsimp only
  rw [show (shPre L δ st).buffer = shBuf L δ st.buffer from rfl, e1, e2]
  exact ⟨rfl, ⟨h.signal, e3, h.sensor⟩⟩

/-! ## Estimators -/

variable (L δ)

/-- A moved position. -/
def shPos (p : Position) : Position := { p with ts := sh L δ p.ts }

/-- A position that is not empty has a time stamp that is late enough. -/
def PosOk (p : Position) : Prop := p.isEmpty = false → L ≤ p.ts

/-- A moved outdoor estimator. -/
def shOut (s : Estim.OutdoorState) : Estim.OutdoorState := { s with last := shPos L δ s.last }

/-- The stored fix is initial or late enough. -/
def OutOk (s : Estim.OutdoorState) : Prop := s.last = Position.default ∨ L ≤ s.last.ts

/-- A moved result of the optional kind. -/
def shRes {α β : Type} (f : α → β) : Result α → Result β
  | .ok a => .ok (f a)
  | .throws => .throws
  | .undefined => .undefined

variable {L δ}

theorem shPos_default (hL : 0 < L) : shPos L δ Position.default = Position.default := by
  unfold shPos Position.default
  simp [sh_old hL le_rfl]

theorem posOk_default : PosOk L Position.default := fun h => by cases h

theorem outdoorLevels_sh (hL : 0 < L) (hδ : 0 ≤ δ) (cs : CommonSettings) {st : Estim.OutdoorState} (hst : OutOk L st)
    {g : Estim.GpsPosition} (hg : L ≤ g.ts) (sats : Int) (ls : List Level) :
    Estim.outdoorLevels cs (shOut L δ st) { g with ts := sh L δ g.ts } sats ls =
        (Estim.outdoorLevels cs st g sats ls).map (fun r => (shPos L δ r.1, shOut L δ r.2)) ∧
      ∀ r, Estim.outdoorLevels cs st g sats ls = some r → PosOk L r.1 ∧ OutOk L r.2 := by
  induction ls with
  | nil =>
    simp only [Estim.outdoorLevels, Option.map_some, shPos_default hL]
    exact ⟨trivial, fun r hr => by cases hr; exact ⟨posOk_default, hst⟩⟩
  | cons l ls ih =>
    simp only [Estim.outdoorLevels]
    by_cases hc : Estim.Box.Covers l.geometry.boundingBox (Geo.gpsToLocal ⟨g.latitude, g.longitude⟩ l.bindingPoint) ∨
        cs.useGpsOutsideMap = true
    · rw [if_pos hc, if_pos hc]
      have et : (sh L δ g.ts ≠ (shOut L δ st).last.ts) ↔ (g.ts ≠ st.last.ts) := not_congr (sh_inj hδ)
      have eb : (shOut L δ st).buf = st.buf := rfl
      simp only [et, eb]
      generalize (if g.ts ≠ st.last.ts then
          if cs.useGpsSigmaFilter = true then Estim.sigmaAdd cs.sigmaFilterWindow cs.sigmaFilterDelta st.buf
            (Geo.gpsToLocal ⟨g.latitude, g.longitude⟩ l.bindingPoint) else some (true, st.buf)
        else some (true, st.buf)) = r
      cases r with
      | none => exact ⟨rfl, fun r hr => by cases hr⟩
      | some r =>
        obtain ⟨v, buf⟩ := r
        dsimp only
        by_cases hv : (!v || (sats ≠ 0 && decide (sats < (cs.minNumSats : Int)))) = true
        · rw [if_pos hv, if_pos hv, Option.map_some, shPos_default hL]
          exact ⟨rfl, fun r hr => by cases hr; exact ⟨posOk_default, hst⟩⟩
        · rw [if_neg hv, if_neg hv, Option.map_some]
          exact ⟨rfl, fun r hr => by cases hr; exact ⟨fun _ => hg, Or.inr hg⟩⟩
    · rw [if_neg hc, if_neg hc]
      exact ih

theorem outdoorPosition_sh (hL : 0 < L) (hδ : 0 ≤ δ) (cs : CommonSettings) (c : LevelCollector)
    {st : Estim.OutdoorState} (hst : OutOk L st) {ts : Int} (hts : L ≤ ts) (m : SensorMeasurement) (n : NmeaMeasurement)
    (flag : Bool) :
    Estim.outdoorPosition cs c (shOut L δ st) (sh L δ ts) (shS L δ m) (shS L δ n) flag =
        (Estim.outdoorPosition cs c st ts m n flag).map (fun r => (shPos L δ r.1, shOut L δ r.2)) ∧
      ∀ r, Estim.outdoorPosition cs c st ts m n flag = some r → PosOk L r.1 ∧ OutOk L r.2 := by
  have e2 : Estim.extractNumberOfSatellites (shS L δ n) = Estim.extractNumberOfSatellites n := rfl
  have e1 : Estim.extractGpsPosition cs (sh L δ ts) (shS L δ m) =
      (Estim.extractGpsPosition cs ts m).map (fun g => { g with ts := sh L δ g.ts }) := by
    unfold Estim.extractGpsPosition
    have e : (shS L δ m).data = m.data := rfl
    rw [e]
    split_ifs <;> rfl
  have e3 : ∀ g, Estim.extractGpsPosition cs ts m = some g → L ≤ g.ts := by
    intro g hg
    unfold Estim.extractGpsPosition at hg
    split_ifs at hg
    cases hg
    exact hts
  have key : ∀ st : Estim.OutdoorState, OutOk L st →
      ((if ((sh L δ ts - (shOut L δ st).last.ts : Int) : ℝ) / 1000 > cs.gpsValidTimeWindowSec then
        some (Position.default, shOut L δ st) else some ((shOut L δ st).last, shOut L δ st)) =
      (if ((ts - st.last.ts : Int) : ℝ) / 1000 > cs.gpsValidTimeWindowSec then
        some (Position.default, st) else some (st.last, st)).map (fun r => (shPos L δ r.1, shOut L δ r.2))) ∧
      ∀ r, (if ((ts - st.last.ts : Int) : ℝ) / 1000 > cs.gpsValidTimeWindowSec then
        some (Position.default, st) else some (st.last, st)) = some r → PosOk L r.1 ∧ OutOk L r.2 := by
    intro st hst
    rcases hst with h1 | h1
    · have e3 : (shOut L δ st).last = Position.default := by
        change shPos L δ st.last = _
        rw [h1, shPos_default hL]
      rw [e3, h1]
      have e4 : ∀ P : Prop, ∀ [Decidable P], ∀ st : Estim.OutdoorState,
          (if P then some (Position.default, st) else some (Position.default, st)) = some (Position.default, st) := by
        intro P _ st; split_ifs <;> rfl
      rw [e4, e4, Option.map_some, shPos_default hL]
      exact ⟨rfl, fun r hr => by cases hr; exact ⟨posOk_default, Or.inl h1⟩⟩
    · have e3 : sh L δ ts - (shOut L δ st).last.ts = ts - st.last.ts := sh_sub hts h1
      rw [e3]
      by_cases hd : ((ts - st.last.ts : Int) : ℝ) / 1000 > cs.gpsValidTimeWindowSec
      · rw [if_pos hd, if_pos hd, Option.map_some, shPos_default hL]
        exact ⟨rfl, fun r hr => by cases hr; exact ⟨posOk_default, Or.inr h1⟩⟩
      · rw [if_neg hd, if_neg hd, Option.map_some]
        exact ⟨rfl, fun r hr => by cases hr; exact ⟨fun _ => h1, Or.inr h1⟩⟩
  unfold Estim.outdoorPosition
  dsimp only
  rw [e1, e2]
  revert e3
  cases Estim.extractGpsPosition cs ts m with
  | none =>
    intro _
    dsimp only [Option.map_none]
    by_cases hf : flag = true ∨ False
    · simp only [if_pos hf]
      exact key { st with buf := [] } hst
    · simp only [if_neg hf]
      exact key st hst
  | some g =>
    intro e3
    dsimp only [Option.map_some]
    by_cases hf : flag = true ∨ cs.maxGpsDeviation < (g.deviation : EReal)
    · rw [if_pos hf, if_pos hf]
      exact outdoorLevels_sh hL hδ cs (st := { st with buf := [] }) hst (e3 g rfl) _ _
    · rw [if_neg hf, if_neg hf]
      exact outdoorLevels_sh hL hδ cs hst (e3 g rfl) _ _

theorem zone_sh (hL : 0 < L) (A B : List (String × ℝ)) (level : Level) {ts : Int} (hts : L ≤ ts) (msr : List RadioData) :
    Estim.zonePosition A B level (sh L δ ts) msr =
        ((Estim.zonePosition A B level ts msr).1, shPos L δ (Estim.zonePosition A B level ts msr).2) ∧
      PosOk L (Estim.zonePosition A B level ts msr).2 := by
  unfold Estim.zonePosition
  split_ifs
  · exact ⟨by rw [shPos_default hL], posOk_default⟩
  · cases Estim.strongest (getLevelRadioMeasurements RadioData.id level msr) with
    | none => exact ⟨by simp only [shPos_default hL], posOk_default⟩
    | some nearest => exact ⟨rfl, fun _ => hts⟩

theorem knn_sh (k : Knn.Cfg) {p : Position} (hp : PosOk L p) (level : Level) {ts : Int} (hts : L ≤ ts) (msr : List RadioData) :
    Knn.calculatePosition k (shPos L δ p) level (sh L δ ts) msr =
        shRes (fun r => (r.1, shPos L δ r.2)) (Knn.calculatePosition k p level ts msr) ∧
      ∀ r, Knn.calculatePosition k p level ts msr = .ok r → PosOk L r.2 := by
  unfold Knn.calculatePosition
  have base : ∀ st : NavigationStatus, (Result.ok (st, shPos L δ p) = shRes (fun r => (r.1, shPos L δ r.2)) (Result.ok (st, p))) ∧
      ∀ r, Result.ok (st, p) = .ok r → PosOk L r.2 := fun st => ⟨rfl, fun r hr => by cases hr; exact hp⟩
  have thr : (Result.throws = shRes (fun r : NavigationStatus × Position => (r.1, shPos L δ r.2)) Result.throws) ∧
      ∀ r : NavigationStatus × Position, Result.throws = .ok r → PosOk L r.2 := ⟨rfl, fun r hr => by cases hr⟩
  by_cases h1 : msr.isEmpty = true
  · simp only [if_pos h1]; exact base _
  simp only [if_neg h1]
  cases StdMap.find? k.refTransmitters level.id with
  | none => exact thr
  | some ids =>
    dsimp only
    by_cases h2 : (Knn.getWhitelistedMeasurements ids msr).length < k.minMsr
    · simp only [if_pos h2]; exact base _
    simp only [if_neg h2]
    cases StdMap.find? k.radiomaps level.id with
    | none => exact thr
    | some rm =>
      dsimp only
      by_cases h3 : k.useTriangles = true
      · simp only [if_pos h3]
        cases StdMap.find? k.triangles level.id with
        | none => exact base _
        | some tri =>
          dsimp only
          by_cases h4 : tri.isEmpty = true
          · simp only [if_pos h4]; exact base _
          simp only [if_neg h4]
          cases Knn.calcPositionInTriangle tri level.radiomap
              (Knn.calcRpWeightsKnn rm (Knn.getWhitelistedMeasurements ids msr) k.useDiffMode) with
          | ok q => exact ⟨rfl, fun r hr => by cases hr; exact fun _ => hts⟩
          | throws => exact thr
          | undefined => exact ⟨rfl, fun r hr => by cases hr⟩
      · simp only [if_neg h3]
        cases Knn.calcKHeaviest k.sort level.radiomap
            (Knn.calcRpWeightsKnn rm (Knn.getWhitelistedMeasurements ids msr) k.useDiffMode) k.k with
        | none => exact thr
        | some q => exact ⟨rfl, fun r hr => by cases hr; exact fun _ => hts⟩

/-! ## Smoothers -/

variable (L δ)

/-- A moved alpha-beta smoother. -/
def shAb (s : AbState) : AbState := { s with position := shPos L δ s.position }

/-- Its position has a time stamp that is late enough, unless it has never been used. -/
def AbOk (s : AbState) : Prop := L ≤ s.position.ts ∨ (s.wasCalled = false ∧ s.position.ts ≤ 0)

/-- A moved least squares smoother. -/
def shLs (s : LsState) : LsState := { s with startTime := sh L δ s.startTime }

/-- Once it has been called its start time is late enough. -/
def LsOk (s : LsState) : Prop := s.wasCalled = true → L ≤ s.startTime

/-- A moved smoother. -/
def shSm : Post.Smoother → Post.Smoother
  | .ab P s => .ab P (shAb L δ s)
  | .ls P ub s => .ls P ub (shLs L δ s)

/-- The condition on a smoother. -/
def SmOk : Post.Smoother → Prop
  | .ab _ s => AbOk L s
  | .ls _ _ s => LsOk L s

/-- A moved time smoother. -/
def shTime (s : TimeState) : TimeState := ⟨shPos L δ s.prev, shPos L δ s.next⟩

/-- The condition on a time smoother. -/
def TimeOk (s : TimeState) : Prop := PosOk L s.prev ∧ PosOk L s.next

variable {L δ}

theorem ab_sh (hL : 0 < L) (hδ : 0 ≤ δ) (P : AbParams) (allowed : ℝ → ℝ → Prop) {s : AbState} (h : AbOk L s) {p : Position}
    (hp : L ≤ p.ts) : abSmooth P allowed (shAb L δ s) (shPos L δ p) =
        (shPos L δ (abSmooth P allowed s p).1, shAb L δ (abSmooth P allowed s p).2) ∧
      AbOk L (abSmooth P allowed s p).2 ∧ L ≤ (abSmooth P allowed s p).1.ts := by
  unfold abSmooth
  have e1 : (shPos L δ p).ts > (shAb L δ s).position.ts ↔ p.ts > s.position.ts := sh_lt hδ
  by_cases hn : p.ts > s.position.ts
  · rw [if_pos (e1.mpr hn), if_pos hn]
    dsimp only
    have e4 : (shAb L δ s).wasCalled = s.wasCalled := rfl
    by_cases hw : s.wasCalled = false
    · rw [if_pos (Or.inl (e4.trans hw)), if_pos (Or.inl hw)]
      exact ⟨rfl, Or.inl hp, hp⟩
    · have e2 : (shPos L δ p).ts - (shAb L δ s).position.ts = p.ts - s.position.ts :=
        sh_sub hp (h.resolve_right (fun h => hw h.1))
      rw [e2]
      have e3 : abGain P (shAb L δ s) (shPos L δ p) = abGain P s p := rfl
      have e5 : (shAb L δ s).position.x = s.position.x := rfl
      have e6 : (shAb L δ s).position.y = s.position.y := rfl
      have e7 : (shAb L δ s).speedX = s.speedX := rfl
      have e8 : (shAb L δ s).speedY = s.speedY := rfl
      have e9 : (shPos L δ p).x = p.x := rfl
      have e10 : (shPos L δ p).y = p.y := rfl
      rw [e3, e4, e5, e6, e7, e8, e9, e10]
      generalize abGain P s p = a
      generalize (((p.ts - s.position.ts : Int) : ℝ) / 1000) = t
      generalize s.position.x + s.speedX * t = xp
      generalize s.position.y + s.speedY * t = yp
      generalize s.speedX + a * a ÷ (2 - a) ÷ t * (p.x - xp) = vx
      generalize s.speedY + a * a ÷ (2 - a) ÷ t * (p.y - yp) = vy
      generalize xp + a * (p.x - xp) = xs
      generalize yp + a * (p.y - yp) = ys
      by_cases hb : s.wasCalled = false ∨ t > TIME_THRESHOLD_SEC ∨
          (P.useSpeedConstraint = true ∧ Real.sqrt (vx * vx + vy * vy) > MAX_OBJECT_VELOCITY_MPS) ∨
          (P.useBarriers = true ∧ ¬ allowed xs ys)
      · rw [if_pos hb, if_pos hb]
        exact ⟨rfl, Or.inl hp, hp⟩
      · rw [if_neg hb, if_neg hb]
        exact ⟨rfl, Or.inl hp, hp⟩
  · rw [if_neg (fun h => hn (e1.mp h)), if_neg hn]
    have : L ≤ s.position.ts := by omega
    exact ⟨rfl, h, this⟩

theorem ls_sh (P : FitParams) (ub : Bool) (allowed : ℝ → ℝ → Prop) {s : LsState} (h : LsOk L s) {p : Position}
    (hp : L ≤ p.ts) : lsSmooth P ub allowed (shLs L δ s) (shPos L δ p) =
        (lsSmooth P ub allowed s p).map (fun r => (shPos L δ r.1, shLs L δ r.2)) ∧
      ∀ r, lsSmooth P ub allowed s p = some r → LsOk L r.2 ∧ r.1.ts = p.ts := by
  unfold lsSmooth
  have e1 : (shLs L δ s).wasCalled = s.wasCalled := rfl
  rw [e1]
  by_cases hw : s.wasCalled = false
  · rw [if_pos hw, if_pos hw]
    exact ⟨rfl, fun r hr => by cases hr; exact ⟨fun _ => hp, rfl⟩⟩
  · rw [if_neg hw, if_neg hw]
    have hs : L ≤ s.startTime := h (by simpa using hw)
    have e2 : (shPos L δ p).ts - (shLs L δ s).startTime = p.ts - s.startTime := sh_sub hp hs
    have e3 : (shLs L δ s).fitX = s.fitX := rfl
    have e4 : (shLs L δ s).fitY = s.fitY := rfl
    have e5 : (shPos L δ p).x = p.x := rfl
    have e6 : (shPos L δ p).y = p.y := rfl
    dsimp only
    rw [e2, e3, e4, e5, e6]
    cases addSequencePoint P s.fitX (((p.ts - s.startTime : Int) : ℝ) / 1000) p.x with
    | none => exact ⟨rfl, fun r hr => by cases hr⟩
    | some fx =>
      cases addSequencePoint P s.fitY (((p.ts - s.startTime : Int) : ℝ) / 1000) p.y with
      | none => exact ⟨rfl, fun r hr => by cases hr⟩
      | some fy =>
        dsimp only
        by_cases hu : ub = true ∧ ¬ ∃ x y, (predict P fx (((p.ts - s.startTime : Int) : ℝ) / 1000)).1 = some x ∧
            (predict P fy (((p.ts - s.startTime : Int) : ℝ) / 1000)).1 = some y ∧ allowed x y
        · rw [if_pos hu, if_pos hu]
          exact ⟨rfl, fun r hr => by cases hr; exact ⟨fun _ => hp, rfl⟩⟩
        · rw [if_neg hu, if_neg hu]
          cases (predict P fx (((p.ts - s.startTime : Int) : ℝ) / 1000)).1 with
          | none => exact ⟨rfl, fun r hr => by cases hr; exact ⟨fun _ => hs, rfl⟩⟩
          | some x =>
            cases (predict P fy (((p.ts - s.startTime : Int) : ℝ) / 1000)).1 with
            | none => exact ⟨rfl, fun r hr => by cases hr; exact ⟨fun _ => hs, rfl⟩⟩
            | some y => exact ⟨rfl, fun r hr => by cases hr; exact ⟨fun _ => hs, rfl⟩⟩

theorem smooth_sh (hL : 0 < L) (hδ : 0 ≤ δ) (allowed : ℝ → ℝ → Prop) {s : Post.Smoother} (h : SmOk L s) {p : Position}
    (hp : L ≤ p.ts) : (shSm L δ s).smooth allowed (shPos L δ p) =
        (s.smooth allowed p).map (fun r => (shPos L δ r.1, shSm L δ r.2)) ∧
      ∀ r, s.smooth allowed p = some r → SmOk L r.2 ∧ L ≤ r.1.ts := by
  cases s with
  | ab P s =>
    obtain ⟨h1, h2, h3⟩ := ab_sh hL hδ P allowed h hp
    simp only [shSm, Post.Smoother.smooth, h1, Option.map_some]
    exact ⟨trivial, fun r hr => by cases hr; exact ⟨h2, h3⟩⟩
  | ls P ub s =>
    obtain ⟨h1, h2⟩ := ls_sh (δ := δ) P ub allowed h hp
    simp only [shSm, Post.Smoother.smooth, h1, Option.map_map]
    refine ⟨rfl, fun r hr => ?_⟩
    obtain ⟨r', hr', rfl⟩ := Option.map_eq_some_iff.mp hr
    obtain ⟨h3, h4⟩ := h2 r' hr'
    exact ⟨h3, by dsimp only; omega⟩

theorem reset_sh {s : Post.Smoother} {p : Position} (hp : L ≤ p.ts) :
    (shSm L δ s).reset (shPos L δ p) = shSm L δ (s.reset p) ∧ SmOk L (s.reset p) := by
  cases s with
  | ab P s => exact ⟨rfl, Or.inl hp⟩
  | ls P ub s => exact ⟨rfl, fun _ => hp⟩

theorem interpolate_sh (hδ : 0 ≤ δ) {s : TimeState} (h1 : L ≤ s.prev.ts) (h2 : L ≤ s.next.ts) (last : Position)
    {ts : Int} (ht : L ≤ ts) :
    timeInterpolate (shTime L δ s) (shPos L δ last) (sh L δ ts) = shPos L δ (timeInterpolate s last ts) := by
  unfold timeInterpolate
  have e1 : (shTime L δ s).next.ts = (shTime L δ s).prev.ts ↔ s.next.ts = s.prev.ts := sh_inj hδ
  have e2 : sh L δ ts - (shTime L δ s).next.ts = ts - s.next.ts := sh_sub ht h2
  have e3 : (shTime L δ s).next.ts - (shTime L δ s).prev.ts = s.next.ts - s.prev.ts := sh_sub h2 h1
  by_cases h : s.next.ts = s.prev.ts
  · rw [if_pos (e1.mpr h), if_pos h]; rfl
  · rw [if_neg (fun g => h (e1.mp g)), if_neg h]
    dsimp only
    rw [e2, e3]
    by_cases hk : ((ts - s.next.ts : Int) : ℝ) > ((s.next.ts - s.prev.ts : Int) : ℝ)
    · rw [if_pos hk, if_pos hk]
    · rw [if_neg hk, if_neg hk]; rfl

theorem time_sh (hδ : 0 ≤ δ) {s : TimeState} (h : TimeOk L s) {p : Position} (hp : L ≤ p.ts) {ts : Int} (ht : L ≤ ts) :
    timeSmooth (shTime L δ s) (shPos L δ p) (sh L δ ts) =
        (shPos L δ (timeSmooth s p ts).1, shTime L δ (timeSmooth s p ts).2) ∧ TimeOk L (timeSmooth s p ts).2 := by
  unfold timeSmooth
  have e1 : sh L δ ts < (shPos L δ p).ts ↔ ts < p.ts := sh_lt hδ
  by_cases h1 : ts < p.ts
  · rw [if_pos (e1.mpr h1), if_pos h1]; exact ⟨rfl, h⟩
  rw [if_neg (fun g => h1 (e1.mp g)), if_neg h1]
  have e2 : ((shTime L δ s).prev.levelId ≠ (shPos L δ p).levelId ∨ (shTime L δ s).next.levelId ≠ (shPos L δ p).levelId) ↔
      (s.prev.levelId ≠ p.levelId ∨ s.next.levelId ≠ p.levelId) := Iff.rfl
  by_cases h2 : s.prev.levelId ≠ p.levelId ∨ s.next.levelId ≠ p.levelId
  · rw [if_pos (e2.mpr h2), if_pos h2]; exact ⟨rfl, fun _ => hp, fun _ => hp⟩
  rw [if_neg (fun g => h2 (e2.mp g)), if_neg h2]
  have e3 : ((shTime L δ s).prev.isEmpty = true ∨ (shTime L δ s).next.isEmpty = true ∨ (shPos L δ p).isEmpty = true) ↔
      (s.prev.isEmpty = true ∨ s.next.isEmpty = true ∨ p.isEmpty = true) := Iff.rfl
  by_cases h3 : s.prev.isEmpty = true ∨ s.next.isEmpty = true ∨ p.isEmpty = true
  · rw [if_pos (e3.mpr h3), if_pos h3]; exact ⟨rfl, h.2, fun _ => hp⟩
  rw [if_neg (fun g => h3 (e3.mp g)), if_neg h3]
  push Not at h3
  have g1 : L ≤ s.prev.ts := h.1 (by simpa using h3.1)
  have g2 : L ≤ s.next.ts := h.2 (by simpa using h3.2.1)
  have e4 : (shPos L δ p).ts > (shTime L δ s).next.ts ↔ p.ts > s.next.ts := sh_lt hδ
  dsimp only
  by_cases h4 : p.ts > s.next.ts
  · rw [if_pos (e4.mpr h4), if_pos h4]
    exact ⟨Prod.ext (interpolate_sh hδ (s := ⟨s.next, p⟩) g2 hp p ht) rfl, h.2, fun _ => hp⟩
  · rw [if_neg (fun g => h4 (e4.mp g)), if_neg h4]
    exact ⟨Prod.ext (interpolate_sh hδ g1 g2 p ht) rfl, h⟩

/-! ## Post-processor -/

variable (L δ)

/-- A moved post-processor. -/
def shPost (s : PostState) : PostState :=
  ⟨s.indoorDev, s.outdoorDev, shTime L δ s.time, shSm L δ s.smoother, shPos L δ s.indoorPos, shPos L δ s.outdoorPos,
    shPos L δ s.lastOut, sh L δ s.lastExtractionTs, sh L δ s.lastStepTs⟩

/-- All time stamps of the post-processor are late enough, or initial. -/
structure PostOk (s : PostState) : Prop where
  time : TimeOk L s.time
  smoother : SmOk L s.smoother
  indoor : PosOk L s.indoorPos
  outdoor : PosOk L s.outdoorPos
  extraction : Mem L 0 s.lastExtractionTs
  step : Mem L (-1) s.lastStepTs

variable {L δ}

theorem priorDev_sh (cs : CommonSettings) {stored given : Position} (h1 : PosOk L stored) (h2 : L ≤ given.ts) (dev : ℝ) :
    Post.priorDev cs (shPos L δ stored) (shPos L δ given) dev = Post.priorDev cs stored given dev := by
  unfold Post.priorDev
  have e : (shPos L δ stored).isEmpty = stored.isEmpty := rfl
  rw [e]
  by_cases h : stored.isEmpty = true
  · rw [if_pos h, if_pos h]
  · rw [if_neg h, if_neg h]
    have e2 : (shPos L δ given).ts - (shPos L δ stored).ts = given.ts - stored.ts := sh_sub h2 (h1 (by simpa using h))
    rw [e2]

theorem fillIndoor_sh (cs : CommonSettings) {s : PostState} (h : PostOk L s) {p : Position} (hp : PosOk L p) :
    Post.fillIndoor cs (shPost L δ s) (shPos L δ p) = shPost L δ (Post.fillIndoor cs s p) ∧ PostOk L (Post.fillIndoor cs s p) := by
  unfold Post.fillIndoor
  have e : (shPos L δ p).isEmpty = p.isEmpty := rfl
  rw [e]
  by_cases hpe : p.isEmpty = true
  · rw [if_pos hpe, if_pos hpe]; exact ⟨rfl, h⟩
  · rw [if_neg hpe, if_neg hpe]
    have hr := hp (by simpa using hpe)
    have e2 := priorDev_sh (δ := δ) cs h.indoor hr s.indoorDev
    refine ⟨?_, ⟨h.time, h.smoother, hp, h.outdoor, h.extraction, h.step⟩⟩
    have e3 : (shPost L δ s).indoorPos = shPos L δ s.indoorPos := rfl
    have e4 : (shPost L δ s).indoorDev = s.indoorDev := rfl
    rw [e3, e4, e2]
    rfl

theorem fillOutdoor_sh (cs : CommonSettings) {s : PostState} (h : PostOk L s) {p : Position} (hp : PosOk L p) :
    Post.fillOutdoor cs (shPost L δ s) (shPos L δ p) = shPost L δ (Post.fillOutdoor cs s p) ∧ PostOk L (Post.fillOutdoor cs s p) := by
  unfold Post.fillOutdoor
  have e : (shPos L δ p).isEmpty = p.isEmpty := rfl
  rw [e]
  by_cases hpe : p.isEmpty = true
  · rw [if_pos hpe, if_pos hpe]; exact ⟨rfl, h⟩
  · rw [if_neg hpe, if_neg hpe]
    have hr := hp (by simpa using hpe)
    have e2 := priorDev_sh (δ := δ) cs h.outdoor hr s.outdoorDev
    refine ⟨?_, ⟨h.time, h.smoother, h.indoor, hp, h.extraction, h.step⟩⟩
    have e3 : (shPost L δ s).outdoorPos = shPos L δ s.outdoorPos := rfl
    have e4 : (shPost L δ s).outdoorDev = s.outdoorDev := rfl
    rw [e3, e4, e2]
    rfl

theorem delay_sh (hδ : 0 ≤ δ) {ts : Int} (ht : L ≤ ts) {p : Position} (hp : L ≤ p.ts) :
    Post.delay (sh L δ ts) (shPos L δ p) = Post.delay ts p := by
  unfold Post.delay
  have e1 : sh L δ ts ≥ (shPos L δ p).ts ↔ ts ≥ p.ts := by
    change sh L δ p.ts ≤ sh L δ ts ↔ p.ts ≤ ts
    rw [← not_lt, ← not_lt, sh_lt hδ]
  have e2 : sh L δ ts - (shPos L δ p).ts = ts - p.ts := sh_sub ht hp
  rw [e2]
  by_cases h : ts ≥ p.ts
  · rw [if_pos (e1.mpr h), if_pos h]
  · rw [if_neg (fun g => h (e1.mp g)), if_neg h]

theorem max_sh {a b : Int} (ha : L ≤ a) (hb : L ≤ b) : max (sh L δ a) (sh L δ b) = sh L δ (max a b) := by
  rw [sh_real ha, sh_real hb, sh_real (le_trans ha (le_max_left a b))]
  exact (max_add_add_right a b δ)

theorem chooseFused_sh (hδ : 0 ≤ δ) (cs : CommonSettings) {s : PostState} (h : PostOk L s) {ts : Int} (ht : L ≤ ts)
    {i o : Position} (hi : PosOk L i) (ho : PosOk L o) (st : NavigationStatus) :
    Post.chooseFused cs (shPost L δ s) (sh L δ ts) (shPos L δ i) (shPos L δ o) st =
        shPos L δ (Post.chooseFused cs s ts i o st) ∧ PosOk L (Post.chooseFused cs s ts i o st) := by
  unfold Post.chooseFused
  have ee : ∀ p, (shPos L δ p).isEmpty = p.isEmpty := fun p => rfl
  have ei : (shPost L δ s).indoorPos = shPos L δ s.indoorPos := rfl
  have eo : (shPost L δ s).outdoorPos = shPos L δ s.outdoorPos := rfl
  have edi : (shPost L δ s).indoorDev = s.indoorDev := rfl
  have edo : (shPost L δ s).outdoorDev = s.outdoorDev := rfl
  rw [ei, eo, edi, edo]
  by_cases c1 : cs.useInstantGpsPosition = true ∧ o.isEmpty = false
  · rw [if_pos c1, if_pos (by rw [ee]; exact c1)]; exact ⟨rfl, ho⟩
  rw [if_neg c1, if_neg (by rw [ee]; exact c1)]
  by_cases c2 : cs.preferIndoorSolution = true ∧ i.isEmpty = false ∧ st = .OK
  · rw [if_pos c2, if_pos (by rw [ee]; exact c2)]; exact ⟨rfl, hi⟩
  rw [if_neg c2, if_neg (by rw [ee]; exact c2)]
  by_cases c3 : cs.useGps = false ∨ s.outdoorPos.isEmpty = true
  · rw [if_pos c3, if_pos (by rw [ee]; exact c3)]; exact ⟨rfl, h.indoor⟩
  rw [if_neg c3, if_neg (by rw [ee]; exact c3)]
  by_cases c4 : s.indoorPos.isEmpty = true
  · rw [if_pos c4, if_pos (by rw [ee]; exact c4)]; exact ⟨rfl, h.outdoor⟩
  rw [if_neg c4, if_neg (by rw [ee]; exact c4)]
  push Not at c3
  have ri : L ≤ s.indoorPos.ts := h.indoor (by simpa using c4)
  have ro : L ≤ s.outdoorPos.ts := h.outdoor (by simpa using c3.2)
  rw [delay_sh hδ ht ri, delay_sh hδ ht ro]
  by_cases c5 : Post.delay ts s.indoorPos > cs.positionIsTooOldSec
  · rw [if_pos c5, if_pos c5]; exact ⟨rfl, h.outdoor⟩
  rw [if_neg c5, if_neg c5]
  by_cases c6 : Post.delay ts s.outdoorPos > cs.positionIsTooOldSec
  · rw [if_pos c6, if_pos c6]; exact ⟨rfl, h.indoor⟩
  rw [if_neg c6, if_neg c6]
  dsimp only
  have ex : ∀ p, (shPos L δ p).x = p.x := fun p => rfl
  have ey : ∀ p, (shPos L δ p).y = p.y := fun p => rfl
  have ed : ∀ p, (shPos L δ p).deviationM = p.deviationM := fun p => rfl
  rw [ex, ex, ey, ey, ed, ed]
  by_cases c7 : cs.fuseGps = true ∧ s.indoorPos.deviationM + s.outdoorPos.deviationM + cs.fuseGpsBorderM >
      Geometry.getDist s.indoorPos.x s.indoorPos.y s.outdoorPos.x s.outdoorPos.y
  · rw [if_pos c7, if_pos c7]
    refine ⟨?_, fun _ => le_trans ri (le_max_left _ _)⟩
    have em : max (shPos L δ s.indoorPos).ts (shPos L δ s.outdoorPos).ts = sh L δ (max s.indoorPos.ts s.outdoorPos.ts) :=
      max_sh ri ro
    rw [em]
    rfl
  rw [if_neg c7, if_neg c7]
  by_cases c8 : cs.averageMovSpeed * Post.delay ts s.indoorPos + s.indoorDev < cs.averageMovSpeed * Post.delay ts s.outdoorPos + s.outdoorDev
  · rw [if_pos c8, if_pos c8]; exact ⟨rfl, h.indoor⟩
  · rw [if_neg c8, if_neg c8]; exact ⟨rfl, h.outdoor⟩

theorem fuse_sh (hδ : 0 ≤ δ) (cs : CommonSettings) {s : PostState} (h : PostOk L s) {ts : Int} (ht : L ≤ ts)
    {i o : Position} (hi : PosOk L i) (ho : PosOk L o) (st : NavigationStatus) :
    Post.fusePositions cs (shPost L δ s) (sh L δ ts) (shPos L δ i) (shPos L δ o) st =
        (shPos L δ (Post.fusePositions cs s ts i o st).1, shPost L δ (Post.fusePositions cs s ts i o st).2) ∧
      PosOk L (Post.fusePositions cs s ts i o st).1 ∧ PostOk L (Post.fusePositions cs s ts i o st).2 := by
  obtain ⟨h1, h2⟩ := fillIndoor_sh (δ := δ) cs h hi
  obtain ⟨h3, h4⟩ := fillOutdoor_sh (δ := δ) cs h2 ho
  obtain ⟨h5, h6⟩ := chooseFused_sh hδ cs h4 ht hi ho st
  unfold Post.fusePositions
  dsimp only
  rw [h1, h3, h5]
  exact ⟨rfl, h6, h4⟩

theorem smoothing_sh (hL : 0 < L) (hδ : 0 ≤ δ) (cs : CommonSettings) (allowed : ℝ → ℝ → Prop) {s : PostState}
    (h : PostOk L s) {p : Position} (hp : L ≤ p.ts) {ts : Int} (ht : L ≤ ts) :
    Post.smoothing cs allowed (shPost L δ s) (shPos L δ p) (sh L δ ts) =
        (Post.smoothing cs allowed s p ts).map (fun r => (shPos L δ r.1, shPost L δ r.2)) ∧
      ∀ r, Post.smoothing cs allowed s p ts = some r → PostOk L r.2 := by
  have key : ∀ (q : Position) (s : PostState), L ≤ q.ts → PostOk L s →
      ((if cs.useTimeSmoothing = true then
          ((timeSmooth (shPost L δ s).time (shPos L δ q) (sh L δ ts)).1,
            { shPost L δ s with time := (timeSmooth (shPost L δ s).time (shPos L δ q) (sh L δ ts)).2 })
        else (shPos L δ q, shPost L δ s)) =
        (fun r : Position × PostState => (shPos L δ r.1, shPost L δ r.2))
          (if cs.useTimeSmoothing = true then ((timeSmooth s.time q ts).1, { s with time := (timeSmooth s.time q ts).2 })
            else (q, s))) ∧
      PostOk L (if cs.useTimeSmoothing = true then ((timeSmooth s.time q ts).1, { s with time := (timeSmooth s.time q ts).2 })
            else (q, s)).2 := by
    intro q s hq hs
    obtain ⟨h1, h2⟩ := time_sh hδ hs.time hq ht
    by_cases hu : cs.useTimeSmoothing = true
    · rw [if_pos hu, if_pos hu]
      have e : timeSmooth (shPost L δ s).time (shPos L δ q) (sh L δ ts) = _ := h1
      rw [e]
      exact ⟨rfl, ⟨h2, hs.smoother, hs.indoor, hs.outdoor, hs.extraction, hs.step⟩⟩
    · rw [if_neg hu, if_neg hu]
      exact ⟨rfl, hs⟩
  unfold Post.smoothing
  dsimp only
  by_cases hu : cs.useSmoothing = true
  · rw [if_pos hu, if_pos hu]
    have e1 : (shPost L δ s).lastOut.levelId = s.lastOut.levelId := rfl
    have e2 : (shPos L δ p).levelId = p.levelId := rfl
    rw [e1, e2]
    have hsm : (if s.lastOut.levelId ≠ p.levelId then (shPost L δ s).smoother.reset (shPos L δ p) else (shPost L δ s).smoother) =
        shSm L δ (if s.lastOut.levelId ≠ p.levelId then s.smoother.reset p else s.smoother) ∧
        SmOk L (if s.lastOut.levelId ≠ p.levelId then s.smoother.reset p else s.smoother) := by
      by_cases hl : s.lastOut.levelId ≠ p.levelId
      · rw [if_pos hl, if_pos hl]; exact reset_sh hp
      · rw [if_neg hl, if_neg hl]; exact ⟨rfl, h.smoother⟩
    rw [hsm.1]
    obtain ⟨h1, h2⟩ := smooth_sh hL hδ allowed hsm.2 hp
    rw [h1]
    revert h2
    cases (if s.lastOut.levelId ≠ p.levelId then s.smoother.reset p else s.smoother).smooth allowed p with
    | none => intro _; exact ⟨rfl, fun r hr => by cases hr⟩
    | some r =>
      intro h2
      obtain ⟨g1, g2⟩ := h2 r rfl
      obtain ⟨k1, k2⟩ := key r.1 { s with smoother := r.2 } g2 ⟨h.time, g1, h.indoor, h.outdoor, h.extraction, h.step⟩
      simp only [Option.map_some]
      exact ⟨congrArg some k1, fun r hr => by cases hr; exact k2⟩
  · rw [if_neg hu, if_neg hu]
    obtain ⟨k1, k2⟩ := key p s hp h
    simp only [Option.map_some]
    exact ⟨congrArg some k1, fun r hr => by cases hr; exact k2⟩

theorem takeOver_sh (hL : 0 < L) (hδ : 0 ≤ δ) (cs : CommonSettings)
    (hu : cs.useStops = true → Post.toLongLong (1000 * cs.stopUpdateTime) < L) {s : PostState}
    (h : PostOk L s) (p : Position) {ts : Int} (ht : L ≤ ts) :
    Post.takeOver cs (shPost L δ s) (shPos L δ p) (sh L δ ts) = shPost L δ (Post.takeOver cs s p ts) ∧
      PostOk L (Post.takeOver cs s p ts) := by
  unfold Post.takeOver
  have e1 : Post.stopDetected cs (shPost L δ s) (sh L δ ts) ↔ Post.stopDetected cs s ts := by
    unfold Post.stopDetected
    have a1 : (shPost L δ s).lastStepTs > 0 ↔ s.lastStepTs > 0 := sh_pos hL hδ
    rw [a1]
    refine and_congr_right (fun hp => ?_)
    have a2 : sh L δ ts - (shPost L δ s).lastStepTs = ts - s.lastStepTs := sh_sub ht (h.step.resolve_left (by omega))
    rw [a2]
  dsimp only
  have ex : ∀ p, (shPos L δ p).x = p.x := fun p => rfl
  have ey : ∀ p, (shPos L δ p).y = p.y := fun p => rfl
  by_cases c1 : cs.useStops = true ∧ Post.stopDetected cs s ts
  · rw [if_pos c1, if_pos ⟨c1.1, e1.mpr c1.2⟩]
    have e2 : (sh L δ ts - (shPost L δ s).lastExtractionTs > Post.toLongLong (1000 * cs.stopUpdateTime)) ↔
        (ts - s.lastExtractionTs > Post.toLongLong (1000 * cs.stopUpdateTime)) := by
      have hlt := hu c1.1
      rcases h.extraction with h0 | h0
      · have : (shPost L δ s).lastExtractionTs = 0 := by
          change sh L δ s.lastExtractionTs = 0
          rw [h0, sh_old hL le_rfl]
        rw [this, h0, sh_real ht]
        exact ⟨fun _ => by omega, fun _ => by omega⟩
      · have : sh L δ ts - (shPost L δ s).lastExtractionTs = ts - s.lastExtractionTs := sh_sub ht h0
        rw [this]
    have e3 : (shPost L δ s).lastOut = shPos L δ s.lastOut := rfl
    rw [e3, ex, ex, ey, ey]
    by_cases c2 : ts - s.lastExtractionTs > Post.toLongLong (1000 * cs.stopUpdateTime) ∧
        Geometry.getDist s.lastOut.x s.lastOut.y p.x p.y < cs.useStopsDistanceThresholdM
    · rw [if_pos c2, if_pos ⟨e2.mpr c2.1, c2.2⟩]
      exact ⟨rfl, ⟨h.time, h.smoother, h.indoor, h.outdoor, Or.inr ht, h.step⟩⟩
    · rw [if_neg c2, if_neg (fun g => c2 ⟨e2.mp g.1, g.2⟩)]
      exact ⟨rfl, ⟨h.time, h.smoother, h.indoor, h.outdoor, h.extraction, h.step⟩⟩
  · rw [if_neg c1, if_neg (fun g => c1 ⟨g.1, e1.mp g.2⟩)]
    exact ⟨rfl, ⟨h.time, h.smoother, h.indoor, h.outdoor, h.extraction, h.step⟩⟩

theorem snap_sh (cs : CommonSettings) (level : Level) (p : Position) :
    Post.snapToGraph cs level (shPos L δ p) = (Post.snapToGraph cs level p).map (shPos L δ) := by
  unfold Post.snapToGraph
  dsimp only
  by_cases hu : cs.useGraphProjection = true
  · rw [if_pos hu, if_pos hu]
    have e : (⟨(shPos L δ p).levelId, (shPos L δ p).x, (shPos L δ p).y⟩ : Geometry.LocationPoint) = ⟨p.levelId, p.x, p.y⟩ := rfl
    rw [e]
    cases NavGraph.projectOnGraph level.graph ⟨p.levelId, p.x, p.y⟩ with
    | none => rfl
    | some q =>
      dsimp only
      cases Geometry.getDistLP ⟨p.levelId, p.x, p.y⟩ q with
      | none => rfl
      | some d =>
        dsimp only
        by_cases hd : d < cs.graphProjDist
        · rw [if_pos hd, if_pos hd]; rfl
        · rw [if_neg hd, if_neg hd]; rfl
  · rw [if_neg hu, if_neg hu]; rfl

theorem processed_sh (hL : 0 < L) (hδ : 0 ≤ δ) (cs : CommonSettings)
    (hu : cs.useStops = true → Post.toLongLong (1000 * cs.stopUpdateTime) < L) (allowed : ℝ → ℝ → Prop) {s : PostState}
    (h : PostOk L s) {p : Position} (hp : PosOk L p) {ts last : Int} (ht : L ≤ ts) (hl : Mem L 0 last) (level : Level) :
    Post.getProcessedPosition cs allowed (shPost L δ s) (shPos L δ p) (sh L δ ts) (sh L δ last) level =
        (Post.getProcessedPosition cs allowed s p ts last level).map (fun r => (shPos L δ r.1, shPost L δ r.2)) ∧
      ∀ r, Post.getProcessedPosition cs allowed s p ts last level = some r → PostOk L r.2 := by
  unfold Post.getProcessedPosition
  have h1 : (if sh L δ last > 0 then { shPost L δ s with lastStepTs := sh L δ last } else shPost L δ s) =
      shPost L δ (if last > 0 then { s with lastStepTs := last } else s) := by
    by_cases hq : last > 0
    · rw [if_pos ((sh_pos hL hδ).mpr hq), if_pos hq]; rfl
    · rw [if_neg (fun h => hq ((sh_pos hL hδ).mp h)), if_neg hq]
  have h2 : PostOk L (if last > 0 then { s with lastStepTs := last } else s) := by
    by_cases hq : last > 0
    · rw [if_pos hq]
      exact ⟨h.time, h.smoother, h.indoor, h.outdoor, h.extraction, Or.inr (hl.resolve_left (by omega))⟩
    · rw [if_neg hq]; exact h
  dsimp only
  rw [h1]
  generalize (if last > 0 then { s with lastStepTs := last } else s) = s1 at h2 ⊢
  have ee : (shPos L δ p).isEmpty = p.isEmpty := rfl
  have em : Post.isInsideMap cs (shPos L δ p) level ↔ Post.isInsideMap cs p level := Iff.rfl
  rw [ee]
  have dflt : some (Position.default, shPost L δ s1) =
      (some (Position.default, s1)).map (fun r => (shPos L δ r.1, shPost L δ r.2)) := by
    rw [Option.map_some, shPos_default hL]
  by_cases c1 : p.isEmpty = true
  · rw [if_pos c1, if_pos c1]; exact ⟨dflt, fun r hr => by cases hr; exact h2⟩
  rw [if_neg c1, if_neg c1]
  by_cases c2 : ¬ Post.isInsideMap cs p level
  · rw [if_pos c2, if_pos (fun g => c2 (em.mp g))]; exact ⟨dflt, fun r hr => by cases hr; exact h2⟩
  rw [if_neg c2, if_neg (fun g => c2 (fun k => g (em.mpr k)))]
  have hr : L ≤ p.ts := hp (by simpa using c1)
  have e3 : sh L δ ts - (shPos L δ p).ts = ts - p.ts := sh_sub ht hr
  rw [e3]
  by_cases c3 : ts - p.ts ≥ Post.toLongLong (1000 * cs.deadReckoningTime)
  · rw [if_pos c3, if_pos c3]; exact ⟨dflt, fun r hr => by cases hr; exact h2⟩
  rw [if_neg c3, if_neg c3]
  obtain ⟨k1, k2⟩ := smoothing_sh hL hδ cs allowed h2 hr ht
  rw [k1]
  revert k2
  cases Post.smoothing cs allowed s1 p ts with
  | none => intro _; exact ⟨rfl, fun r hr => by cases hr⟩
  | some q =>
    intro k2
    obtain ⟨t1, t2⟩ := takeOver_sh hL hδ cs hu (k2 q rfl) q.1 ht
    simp only [Option.map_some, Option.bind_some]
    rw [t1]
    have e5 : (shPost L δ (Post.takeOver cs q.2 q.1 ts)).lastOut = shPos L δ (Post.takeOver cs q.2 q.1 ts).lastOut := rfl
    rw [e5, snap_sh]
    cases Post.snapToGraph cs level (Post.takeOver cs q.2 q.1 ts).lastOut with
    | none => exact ⟨rfl, fun r hr => by cases hr⟩
    | some w =>
      exact ⟨rfl, fun r hr => by
        cases hr; exact ⟨t2.time, t2.smoother, t2.indoor, t2.outdoor, t2.extraction, t2.step⟩⟩

theorem postInit_sh (hL : 0 < L) (hδ : 0 ≤ δ) (cs : CommonSettings) :
    shPost L δ (Post.postInit cs) = Post.postInit cs ∧ PostOk L (Post.postInit cs) := by
  have hd := shPos_default (δ := δ) hL
  have h0 : sh L δ 0 = 0 := sh_old hL le_rfl
  have h1 : sh L δ (-1) = -1 := sh_old hL (by norm_num)
  constructor
  · unfold Post.postInit shPost shTime timeInit
    dsimp only
    rw [hd, h0, h1]
    by_cases hu : cs.useAbFilter = true
    · simp only [if_pos hu, shSm, shAb, abInit, hd]
    · simp only [if_neg hu, shSm, shLs, lsInit, h0]
  · refine ⟨⟨posOk_default, posOk_default⟩, ?_, posOk_default, posOk_default, Or.inl rfl, Or.inl rfl⟩
    unfold Post.postInit
    dsimp only
    by_cases hu : cs.useAbFilter = true
    · rw [if_pos hu]; exact Or.inr ⟨rfl, le_rfl⟩
    · rw [if_neg hu]; intro h; cases h

end Verif.Shift
