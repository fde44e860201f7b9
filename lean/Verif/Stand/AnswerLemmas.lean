import Verif.Stand.AnswerSpec
import Verif.Stand.Lemmas
import Verif.Mixed.Lemmas
import Verif.Nav.ZoneProps

/-!
# Lemmas for C136: the state of a client with zones that detects stops
-/

namespace Verif.Stand

open Verif.Levels Verif.Nav
open Verif.Geo (XYPoint)
open Verif.Knn (Result)
open Verif.Mixed (Fix zoneFix ZoneLaw HoldsFix Holds)

theorem stop_span {cs : CommonSettings} (h : StopZones cs) : 0 < spanOf cs := by
  unfold spanOf
  have := h.span
  rw [Int.floor_pos]
  linarith

theorem stop_buffer {cs : CommonSettings} (h : StopZones cs) :
    let b := Radio.createRadioMeasurementBuffer cs
    b.shiftMs = spanOf cs ∧ b.keepMs = 0 ∧ b.bias = 0 ∧ b.useStops = true ∧ b.stopMs = ⌊1000 * cs.stopDetectionTime⌋ := by
  intro b
  have h0 : (0 : ℝ) ≤ 1000 * cs.sigAveragingTime := by have := h.span; linarith
  have e1 : Radio.truncToInt (1000 * cs.sigAveragingTime) = spanOf cs := by
    unfold Radio.truncToInt spanOf
    rw [if_pos h0]
  have e2 : Radio.truncToInt (1000 * cs.sigWindowShift) = 0 := by
    rw [h.shift]; simp [Radio.truncToInt]
  have e3 : b.stopMs = ⌊1000 * cs.stopDetectionTime⌋ := by
    change Radio.truncToInt (1000 * cs.stopDetectionTime) = _
    unfold Radio.truncToInt
    rw [if_pos (by have := h.detection; linarith)]
  obtain ⟨-, h2, -, -, h5, h6, -⟩ := Radio.C23_window cs
  obtain ⟨h3, h4⟩ := h2 (Or.inl e2)
  exact ⟨h3.trans e1, h4, h5, h6.trans h.stops, e3⟩

theorem mean_perm {l l' : List ℝ} (h : l.Perm l') : Radio.mean l = Radio.mean l' := by
  unfold Radio.mean
  rw [h.sum_eq, h.length_eq]

theorem meanRssi_perm {w w' : List RadioMeasurement} (h : w.Perm w') (id : String) : meanRssi w id = meanRssi w' id := by
  unfold meanRssi
  refine mean_perm (List.Perm.map _ ?_)
  unfold Radio.ofTransmitter
  exact h.filter _

theorem handed_perm {w w' : List RadioMeasurement} {radio : List RadioData} (h : w.Perm w') (ho : HandedOut w radio) :
    HandedOut w' radio := by
  refine ⟨ho.sorted, fun id => ?_, fun e he => ?_, fun e he => ?_⟩
  · rw [ho.ids id]
    constructor <;> rintro ⟨m, hm, e⟩
    · exact ⟨m, h.mem_iff.mp hm, e⟩
    · exact ⟨m, h.mem_iff.mpr hm, e⟩
  · rw [ho.rssi e he, meanRssi_perm h]
  · obtain ⟨m, hm, e1⟩ := ho.power e he
    exact ⟨m, h.mem_iff.mp hm, e1⟩

theorem takeOn_heard {ls : List Level} {cs : CommonSettings} (stay : Prop) (w : Windows) {d : RadioData} {t : Int}
    (h : Radio.Admissible ls cs d) :
    takeOn ls cs stay w ⟨.radio d, t⟩ = hearOn (spanOf cs) (open Classical in decide stay) w ⟨d, t⟩ := by
  unfold takeOn
  exact if_pos h

theorem takeOn_not_heard {ls : List Level} {cs : CommonSettings} (stay : Prop) (w : Windows) {m : Measurement} (h : ¬ Heard ls cs m) :
    takeOn ls cs stay w m = w := by
  unfold takeOn
  split
  · rename_i d hd
    exact if_neg (fun ha => h ⟨d, hd, ha⟩)
  · rfl

/-- The buffer holds the signals of the open window, in some order, and the time of the last step. -/
structure BufferedOn (cs : CommonSettings) (w : Windows) (step : Option Int) (b : Radio.BufferState) : Prop where
  pending : b.measurements.Perm w.pending
  none : w.opened = none → b.currentTs = 0 ∧ b.lastExtractionTs = 0
  some : ∀ t, w.opened = some t → b.lastExtractionTs = t ∧ b.currentTs ≠ 0
  gate : b.currentTs - b.lastExtractionTs < spanOf cs
  last : b.lastStepTs = step.getD 0
  positive : ∀ t, step = Option.some t → 0 < t

/-- The preprocessor with one measurement; `t` is its time if a step is reported, and zero otherwise. -/
theorem stop_radio {ls : List Level} {c : Cfg} (hc : Client ls c) (hp : StopZones c.cs) {w : Windows} {old : Option Int} {st : Radio.State}
    (hb : BufferedOn c.cs w old st.buffer) {m : Measurement} (hts : 0 < m.ts) {t : Int} {stepped : Bool}
    (ht : t = if stepped then m.ts else 0) {radio : List RadioData}
    (hr : (Radio.extractRadioMeasurements c.env.radioSorts c.pre (Radio.updateMeasurements c.pre st m) t).1 = some radio) :
    let step := if stepped then some m.ts else old
    let w' := takeOn ls c.cs (Resting c.cs step m.ts) w m
    let st' := (Radio.extractRadioMeasurements c.env.radioSorts c.pre (Radio.updateMeasurements c.pre st m) t).2
    BufferedOn c.cs w' step st'.buffer ∧
    ((radio = [] ∧ ¬ (Heard ls c.cs m ∧ spanOf c.cs ≤ m.ts - w.opened.getD m.ts) ∧ w'.closed = w.closed ∧
      (∀ h ∈ w'.pending, h ∈ w.pending ∨ ∃ d, m.data = .radio d ∧ Radio.Admissible ls c.cs d ∧ h = ⟨d, m.ts⟩)) ∨
     (spanOf c.cs ≤ m.ts - w.opened.getD m.ts ∧ ∃ d win, m.data = .radio d ∧ Radio.Admissible ls c.cs d ∧ win = w.pending ++ [⟨d, m.ts⟩] ∧
      w'.closed = some (m.ts, win) ∧ (∀ h ∈ w'.pending, h ∈ win) ∧ HandedOut win radio)) := by
  classical
  intro step w' st'
  obtain ⟨b1, b2, b3, b4, b5⟩ := stop_buffer hp
  have hpre : c.pre = Radio.mkCfg (collect ls) c.cs := hc.parts.pre
  have hbuf : c.pre.buffer = Radio.createRadioMeasurementBuffer c.cs := by rw [hpre]; rfl
  have hcl : c.pre.useClosestAps = false := by rw [hpre]; exact hp.closest
  rw [← hbuf] at b1 b2 b3 b4 b5
  have hsp := stop_span hp
  have hnil : Radio.closestAps c.env.radioSorts c.pre [] = [] := by
    unfold Radio.closestAps; rw [hcl]; rfl
  have hstep : ∀ b : Radio.BufferState, b.lastStepTs = old.getD 0 → Radio.stepTs b t = step.getD 0 := by
    intro b h
    unfold Radio.stepTs
    rw [ht, h]
    cases stepped
    · simp [step]
    · simp [step, hts]
  have hpos : ∀ t, step = some t → 0 < t := by
    intro t h
    cases stepped
    · exact hb.positive t h
    · simp only [step, if_true, Option.some.injEq] at h
      rw [← h]; exact hts
  have hrest : ∀ now : Int, Resting c.cs step now ↔ step.getD 0 > 0 ∧ now - step.getD 0 > ⌊1000 * c.cs.stopDetectionTime⌋ := by
    intro now
    unfold Resting
    cases hs : step with
    | none => simp
    | some u =>
      have := hpos u hs
      simp only [Option.some.injEq, exists_eq_left', Option.getD_some]
      constructor
      · intro h; exact ⟨this, h⟩
      · intro h; exact h.2
  by_cases hh : Heard ls c.cs m
  · obtain ⟨d, hd, ha⟩ := hh
    obtain ⟨data, ts⟩ := m
    dsimp only at hd hts ⊢
    subst hd
    have hw' : w' = hearOn (spanOf c.cs) (decide (Resting c.cs step ts)) w ⟨d, ts⟩ := takeOn_heard _ w ha
    have hu : (Radio.updateMeasurements c.pre st ⟨.radio d, ts⟩).buffer = Radio.addMeasurement c.pre.buffer st.buffer ⟨d, ts⟩ := by
      have hv : Radio.getValidSignalEntry c.pre d = some d := by
        have h1 := ((Radio.C16_admission ls hc.map.nodup c.cs st d ts).1 ha).1
        rw [← hpre] at h1
        unfold Radio.updateMeasurements at h1
        dsimp only at h1
        cases hg : Radio.getValidSignalEntry c.pre d with
        | none => rw [hg] at h1; simp at h1
        | some v =>
          unfold Radio.getValidSignalEntry at hg
          dsimp only at hg
          split_ifs at hg <;> (rw [Option.some.injEq] at hg; rw [hg])
      unfold Radio.updateMeasurements
      dsimp only
      rw [hv]
    have hadd : Radio.addMeasurement c.pre.buffer st.buffer ⟨d, ts⟩ =
        ⟨w.opened.getD ts, ts, st.buffer.lastStepTs, st.buffer.measurements ++ [⟨d, ts⟩]⟩ := by
      unfold Radio.addMeasurement
      dsimp only
      rw [b3]
      cases ho : w.opened with
      | none =>
        rw [if_pos (hb.none ho).1]
        simp
      | some t0 =>
        rw [if_neg (hb.some t0 ho).2, (hb.some t0 ho).1]
        simp
    generalize hB : (⟨w.opened.getD ts, ts, st.buffer.lastStepTs, st.buffer.measurements ++ [⟨d, ts⟩]⟩ : Radio.BufferState) = B at hadd
    have B1 : B.lastExtractionTs = w.opened.getD ts := by rw [← hB]
    have B2 : B.currentTs = ts := by rw [← hB]
    have B3 : Radio.stepTs B t = step.getD 0 := hstep B (by rw [← hB]; exact hb.last)
    have B4 : B.measurements.Perm (w.pending ++ [⟨d, ts⟩]) := by rw [← hB]; exact hb.pending.append_right _
    have hex : st' = { Radio.updateMeasurements c.pre st ⟨.radio d, ts⟩ with
        buffer := (Radio.extractMeasurements c.env.radioSorts c.pre.buffer B t).2 } := by
      simp only [st', Radio.extractRadioMeasurements]
      rw [hu, hadd]
    have hr' : (Radio.closestAps c.env.radioSorts c.pre (Radio.extractMeasurements c.env.radioSorts c.pre.buffer
        B t).1).mapM (Radio.withDistance c.pre) = some radio := by
      rw [← hr]
      simp only [Radio.extractRadioMeasurements]
      rw [hu, hadd]
    by_cases hclose : spanOf c.cs ≤ ts - w.opened.getD ts
    · have hw2 : w' = ⟨some ts, if decide (Resting c.cs step ts) then w.pending ++ [⟨d, ts⟩] else [], some (ts, w.pending ++ [⟨d, ts⟩])⟩ := by
        rw [hw']; unfold hearOn; exact if_pos hclose
      have hpass := Radio.extract_pass c.env.radioSorts c.pre.buffer B t (by rw [b1, B1, B2]; omega)
      have hperm := hc.radioSorts.byId.perm B.measurements
      refine ⟨?_, Or.inr ⟨hclose, d, _, rfl, ha, rfl, by rw [hw2], ?_, ?_⟩⟩
      · rw [hex, hw2, hpass, B2, B3, b2, b4, b5]
        dsimp only
        refine ⟨?_, by simp, ?_, ?_, rfl, hpos⟩
        · by_cases hs : Resting c.cs step ts
          · have := (hrest ts).mp hs
            rw [if_pos ⟨rfl, this.1, this.2⟩]
            simp only [hs, decide_true, if_true]
            exact hperm.trans B4
          · rw [if_neg (fun h => hs ((hrest ts).mpr h.2)), if_pos rfl]
            simp [hs]
        · intro t0 h0; cases h0; exact ⟨rfl, by dsimp only; omega⟩
        · rw [sub_self]; exact hsp
      · rw [hw2]
        dsimp only
        intro h hh
        split_ifs at hh
        · exact hh
        · cases hh
      · refine handed_perm B4 ?_
        obtain ⟨a1, a2, a3⟩ := Radio.C17_average c.env.radioSorts hc.radioSorts c.pre.buffer B t (by rw [b1, B1, B2]; exact hclose)
        generalize (Radio.extractMeasurements c.env.radioSorts c.pre.buffer B t).1 = out at *
        have hcap : Radio.closestAps c.env.radioSorts c.pre out = out := by
          unfold Radio.closestAps; rw [hcl]; rfl
        rw [hcap, Radio.mapM_forall₂] at hr'
        have hsame : ∀ k e, Radio.withDistance c.pre k = some e → k.id = e.id ∧ k.rssi = e.rssi ∧ k.power = e.power := by
          intro k e hke
          obtain ⟨e', h1, h2, -⟩ := Radio.C22_distance ls hc.map.nodup c.cs k
          rw [← hpre, hke] at h1
          cases h1
          rw [h2]
          exact ⟨rfl, rfl, rfl⟩
        have hids : out.map RadioData.id = radio.map RadioData.id := forall₂_map_eq (fun a b h => (hsame a b h).1) hr'
        refine ⟨by rw [← hids]; exact a1, ?_, ?_, ?_⟩
        · intro id
          have := a2 id
          rw [hids] at this
          rw [← this, List.mem_map]
        · intro e he
          obtain ⟨k, hk, hke⟩ := forall₂_exists hr' he
          obtain ⟨h1, h2, -⟩ := hsame k e hke
          rw [← h2, ← h1]
          exact (a3 k hk).1
        · intro e he
          obtain ⟨k, hk, hke⟩ := forall₂_exists hr' he
          obtain ⟨h1, -, h3⟩ := hsame k e hke
          obtain ⟨-, -, m, hm, e1, -, e2, -⟩ := a3 k hk
          exact ⟨m, hm, by rw [e1, h1], by rw [e2, h3]⟩
    · have hw2 : w' = ⟨some (w.opened.getD ts), w.pending ++ [⟨d, ts⟩], w.closed⟩ := by
        rw [hw']; unfold hearOn; exact if_neg hclose
      have hfail := Radio.extract_fail c.env.radioSorts c.pre.buffer B t (by rw [b1, B1, B2]; omega)
      rw [hfail, hnil] at hr'
      refine ⟨?_, Or.inl ⟨by simpa using hr'.symm, fun h => hclose h.2, by rw [hw2], ?_⟩⟩
      · rw [hex, hw2, hfail, B3]
        dsimp only
        refine ⟨B4, by simp, ?_, ?_, rfl, hpos⟩
        · intro t0 h0; cases h0; exact ⟨B1, by dsimp only; omega⟩
        · dsimp only; omega
      · rw [hw2]
        intro h hm
        rcases List.mem_append.mp hm with hm | hm
        · exact .inl hm
        · exact .inr ⟨d, rfl, ha, List.mem_singleton.mp hm⟩
  · have hw' : w' = w := takeOn_not_heard _ w hh
    have hu := ((update_heard hc st m).2 hh).2
    have hfail := Radio.extract_fail c.env.radioSorts c.pre.buffer st.buffer t (by rw [b1]; exact hb.gate)
    have hr' : (Radio.closestAps c.env.radioSorts c.pre (Radio.extractMeasurements c.env.radioSorts c.pre.buffer
        st.buffer t).1).mapM (Radio.withDistance c.pre) = some radio := by
      rw [← hr]
      simp only [Radio.extractRadioMeasurements]
      rw [hu]
    rw [hfail, hnil] at hr'
    refine ⟨?_, Or.inl ⟨by simpa using hr'.symm, fun h => hh h.1, by rw [hw'], fun h hm => .inl (by rw [hw'] at hm; exact hm)⟩⟩
    have hex : st'.buffer = { st.buffer with lastStepTs := Radio.stepTs st.buffer t } := by
      simp only [st', Radio.extractRadioMeasurements]
      rw [hu, hfail]
    rw [hex, hw', hstep st.buffer hb.last]
    exact ⟨hb.pending, hb.none, hb.some, hb.gate, rfl, hpos⟩

/-- A position of the model is the held place with its radius. -/
structure HoldsSpot (lv : Level) (p : Position) (spot : XYPoint) (radius : Option ℝ) : Prop where
  xy : p.toXY = spot
  isEmpty : p.isEmpty = radius.isNone
  shown : ∀ r, radius = some r → p.levelId = lv.id ∧ p.deviationM = r ∧ p.provider = .INDOOR

/-- A position of the model is the shown one. -/
structure HoldsAnswer (lv : Level) (p : Position) (answer : Option (XYPoint × ℝ)) : Prop where
  isEmpty : p.isEmpty = answer.isNone
  shown : ∀ q r, answer = some (q, r) → p.toXY = q ∧ p.levelId = lv.id ∧ p.deviationM = r ∧ p.provider = .INDOOR

/-- The state of the post-processor and the memory. -/
structure PostHolds (lv : Level) (v : Memory) (s : Post.PostState) : Prop where
  counted : s.lastStepTs = v.counted.getD (-1)
  positive : ∀ t, v.counted = some t → 0 < t
  zone : HoldsFix lv .INDOOR s.indoorPos v.zone
  out : HoldsSpot lv s.lastOut v.spot v.radius
  renewed : s.lastExtractionTs = v.renewed
  inside : s.outdoorPos.isEmpty = true

theorem fit_settle (lv : Level) (p : Position) : (Post.fitInBox lv.geometry.boundingBox p).toXY = settle lv p.toXY := rfl

/-- The post-processor shows the place of the memory. -/
theorem displayed {cs : CommonSettings} (hp : StopZones cs) {allowed : ℝ → ℝ → Prop} {lv : Level} {v : Memory} {s : Post.PostState}
    (hs : PostHolds lv v s) {now lm : Int} {stepped : Bool} (hnow : 0 < now) (hlm : lm = if stepped then now else 0)
    {p : Position × Post.PostState} (h : Post.getProcessedPosition cs allowed s s.indoorPos now lm lv = some p) :
    let v' := ({ v with counted := if stepped then some now else v.counted } : Memory).display lv cs now
    PostHolds lv v' p.2 ∧ HoldsAnswer lv p.1 v'.answer := by
  classical
  dsimp only
  generalize hv1 : ({ v with counted := if stepped then some now else v.counted } : Memory) = v1
  obtain ⟨v', hv'⟩ : ∃ v', v' = v1.display lv cs now := ⟨_, rfl⟩
  rw [← hv']
  have hd : Post.toLongLong (1000 * cs.deadReckoningTime) = ⌊1000 * cs.deadReckoningTime⌋ :=
    toLongLong_eq (by have := hp.reckoning; linarith)
  have hsd : Post.toLongLong (1000 * cs.stopDetectionTime) = ⌊1000 * cs.stopDetectionTime⌋ :=
    toLongLong_eq (by have := hp.detection; linarith)
  have hsu : Post.toLongLong (1000 * cs.stopUpdateTime) = ⌊1000 * cs.stopUpdateTime⌋ :=
    toLongLong_eq (by have := hp.update; linarith)
  have hin : ∀ q : Position, Post.isInsideMap cs q lv ↔ Estim.Box.Covers lv.geometry.boundingBox q.toXY := by
    intro q
    unfold Post.isInsideMap; rw [hp.outside]; simp
  unfold Post.getProcessedPosition at h
  dsimp only at h
  rw [hd] at h
  generalize hs1 : (if lm > 0 then { s with lastStepTs := lm } else s) = s1 at h
  have hind : s1.indoorPos = s.indoorPos := by rw [← hs1]; split_ifs <;> rfl
  have h1 : PostHolds lv v1 s1 := by
    rw [← hs1, ← hv1, hlm]
    cases stepped
    · simp only [Bool.false_eq_true, if_false, gt_iff_lt, lt_self_iff_false]
      exact ⟨hs.counted, hs.positive, hs.zone, hs.out, hs.renewed, hs.inside⟩
    · simp only [if_true, gt_iff_lt, hnow]
      exact ⟨rfl, fun t ht => by cases ht; exact hnow, hs.zone, hs.out, hs.renewed, hs.inside⟩
  have hstop : Post.stopDetected cs s1 now ↔ Stopped cs v1.counted now := by
    unfold Post.stopDetected Stopped
    rw [hsd, h1.counted]
    cases hc : v1.counted with
    | none => simp
    | some u =>
      have := h1.positive u hc
      simp only [Option.some.injEq, exists_eq_left', Option.getD_some]
      constructor
      · intro h; exact h.2
      · intro h; exact ⟨this, h⟩
  rw [← hind] at h
  have hz := h1.zone
  have hrej : ∀ w : Memory, w = { v1 with answer := none } → p = (Position.default, s1) → PostHolds lv w p.2 ∧ HoldsAnswer lv p.1 w.answer := by
    rintro w rfl rfl
    exact ⟨⟨h1.counted, h1.positive, h1.zone, h1.out, h1.renewed, h1.inside⟩, ⟨rfl, fun q r h => by cases h⟩⟩
  cases hvz : v1.zone with
  | none =>
    rw [hvz] at hz
    have hz' : s1.indoorPos.isEmpty = true := hz
    rw [if_pos hz', Option.some.injEq] at h
    refine hrej v' ?_ h.symm
    rw [hv']
    unfold Memory.display
    rw [hvz]
  | some z =>
    rw [hvz] at hz
    have hz' : Holds lv .INDOOR z s1.indoorPos := hz
    rw [if_neg (by rw [hz'.isEmpty]; simp)] at h
    have hxy : s1.indoorPos.toXY = z.place := by simp [Position.toXY, hz'.x, hz'.y]
    by_cases hu : Usable lv cs z now
    swap
    · have hv' : v' = { v1 with answer := none } := by
        rw [hv']
        unfold Memory.display
        rw [hvz]
        exact if_pos hu
      refine hrej v' hv' ?_
      by_cases hb : Estim.Box.Covers lv.geometry.boundingBox z.place
      · rw [if_neg (by rw [hin, hxy]; simpa using hb), hz'.ts, if_pos (by
          by_contra hlt
          exact hu ⟨hb, by omega⟩), Option.some.injEq] at h
        exact h.symm
      · rw [if_pos (by rw [hin, hxy]; exact hb), Option.some.injEq] at h
        exact h.symm
    rw [if_neg (by rw [hin, hxy]; simpa using hu.1), hz'.ts, if_neg (by have := hu.2; omega)] at h
    have hsm : Post.smoothing cs allowed s1 s1.indoorPos now = some (s1.indoorPos, s1) := by
      unfold Post.smoothing
      simp [hp.smoothing, hp.timeSmoothing]
    have hsn : ∀ q, Post.snapToGraph cs lv q = some q := by
      intro q
      unfold Post.snapToGraph
      simp [hp.graph]
    rw [hsm, Option.bind_some] at h
    dsimp only at h
    rw [hsn, Option.map_some, Option.some.injEq] at h
    have hxs : s1.lastOut.x = v1.spot.x ∧ s1.lastOut.y = v1.spot.y := by
      rw [← h1.out.xy]; exact ⟨rfl, rfl⟩
    have hren : (now - s1.lastExtractionTs > Post.toLongLong (1000 * cs.stopUpdateTime) ∧
        Geometry.getDist s1.lastOut.x s1.lastOut.y s1.indoorPos.x s1.indoorPos.y < cs.useStopsDistanceThresholdM) ↔ Renews cs v1 z now := by
      unfold Renews
      rw [hsu, h1.renewed, hxs.1, hxs.2, hz'.x, hz'.y]
    have hdisp : v' = if Stopped cs v1.counted now ∧ ¬ Renews cs v1 z now then
        { v1 with spot := settle lv v1.spot, answer := v1.radius.map (fun r => (settle lv v1.spot, r)) }
      else
        { v1 with
          spot := settle lv z.place
          radius := some z.radius
          renewed := if Stopped cs v1.counted now then now else v1.renewed
          answer := some (settle lv z.place, z.radius) } := by
      rw [hv']
      unfold Memory.display
      rw [hvz]
      dsimp only
      rw [if_neg (not_not.mpr hu)]
    rw [hdisp, ← h]
    by_cases hst : Stopped cs v1.counted now
    · by_cases hrn : Renews cs v1 z now
      · have hto : Post.takeOver cs s1 s1.indoorPos now = { s1 with lastExtractionTs := now, lastOut := { s1.indoorPos with ts := now } } := by
          unfold Post.takeOver
          dsimp only
          rw [if_pos ⟨hp.stops, hstop.mpr hst⟩, if_pos (hren.mpr hrn)]
        rw [hto, if_neg (fun h => h.2 hrn), if_pos hst]
        have e : (Post.fitInBox lv.geometry.boundingBox { s1.indoorPos with ts := now }).toXY = settle lv z.place := by
          rw [fit_settle, ← hxy]; rfl
        refine ⟨⟨h1.counted, h1.positive, h1.zone, ⟨e, hz'.isEmpty, fun r hr => ?_⟩, rfl, h1.inside⟩,
          ⟨hz'.isEmpty, fun q r hr => ?_⟩⟩
        · cases hr; exact ⟨hz'.levelId, hz'.radius, hz'.provider⟩
        · cases hr; exact ⟨e, hz'.levelId, hz'.radius, hz'.provider⟩
      · have hto : Post.takeOver cs s1 s1.indoorPos now = { s1 with lastOut := { s1.lastOut with ts := now } } := by
          unfold Post.takeOver
          dsimp only
          rw [if_pos ⟨hp.stops, hstop.mpr hst⟩, if_neg (fun h => hrn (hren.mp h))]
        rw [hto, if_pos ⟨hst, hrn⟩]
        have e : (Post.fitInBox lv.geometry.boundingBox { s1.lastOut with ts := now }).toXY = settle lv v1.spot := by
          rw [fit_settle, ← h1.out.xy]; rfl
        refine ⟨⟨h1.counted, h1.positive, h1.zone, ⟨e, h1.out.isEmpty, h1.out.shown⟩, h1.renewed, h1.inside⟩,
          ⟨?_, fun q r hr => ?_⟩⟩
        · dsimp only [Post.fitInBox]
          rw [h1.out.isEmpty]
          cases v1.radius <;> rfl
        · cases hra : v1.radius with
          | none => rw [hra] at hr; cases hr
          | some r0 =>
            rw [hra] at hr
            simp only [Option.map_some, Option.some.injEq, Prod.mk.injEq] at hr
            obtain ⟨rfl, rfl⟩ := hr
            exact ⟨e, h1.out.shown _ hra⟩
    · have hto : Post.takeOver cs s1 s1.indoorPos now =
          { s1 with lastOut := { s1.indoorPos with ts := now, deviationM := s1.indoorPos.deviationM } } := by
        unfold Post.takeOver
        dsimp only
        rw [if_neg (fun h => hst (hstop.mp h.2))]
      rw [hto, if_neg (fun h => hst h.1), if_neg hst]
      have e : (Post.fitInBox lv.geometry.boundingBox { s1.indoorPos with ts := now, deviationM := s1.indoorPos.deviationM }).toXY =
          settle lv z.place := by
        rw [fit_settle, ← hxy]; rfl
      refine ⟨⟨h1.counted, h1.positive, h1.zone, ⟨e, hz'.isEmpty, fun r hr => ?_⟩, h1.renewed, h1.inside⟩,
        ⟨hz'.isEmpty, fun q r hr => ?_⟩⟩
      · cases hr; exact ⟨hz'.levelId, hz'.radius, hz'.provider⟩
      · cases hr; exact ⟨e, hz'.levelId, hz'.radius, hz'.provider⟩

end Verif.Stand
