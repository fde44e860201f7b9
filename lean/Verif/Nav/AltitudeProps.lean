import Verif.Nav.Props
import Verif.Nav.Examples

/-!
# The altitude in the outputs of the navigation client: C101
-/

namespace Verif.Nav

open Verif.Levels
open Verif.Knn (Result)

/-! ## Specification -/

/-- The altitude that is reported for what the trilateration answers: 0 for no answer. -/
noncomputable def shownAltitude : Trilat.Altitude → Option ℝ
  | .none => some 0
  | .value v => some v
  | .notFinite => none

/-- The window of the radio measurements has a length of at least a millisecond, and so has its shift, if any. -/
structure RealWindow (cs : CommonSettings) : Prop where
  span : 1 / 1000 ≤ cs.sigAveragingTime
  shift : cs.sigWindowShift = 0 ∨ 1 / 1000 ≤ cs.sigWindowShift

/-! ## Proofs -/

/-- **C101.** The altitude of an answer is 0 if the settings do not ask for it; otherwise it is what the trilateration
says about the level of the answer and the radio measurements that are handed out for this message, or 0 if it says nothing. -/
theorem C101_altitude {ls : List Level} {c : Cfg} (hc : Client ls c) (g : Garbage) (batches : List (List Measurement))
    {s : State} {outs : List (Output × DebugState)} (h : navigateAll c (init c g) batches = .ok (s, outs))
    (m : Measurement) :
    ∃ s' out dbg radio, navigate c s [m] = .ok (s', [(out, dbg)]) ∧
      (∃ t, (Radio.extractRadioMeasurements c.env.radioSorts c.pre (Radio.updateMeasurements c.pre s.pre m) t).1 = some radio) ∧
      (out.status = .OK →
        (c.cs.useAltitude = false → out.posAltitude = some 0) ∧
        (c.cs.useAltitude = true → ∃ lv ∈ ls, lv.id = out.posLevel ∧ ∃ a,
          Trilat.calculateAltitude c.env.distanceSort c.env.solve lv radio = some a ∧ out.posAltitude = shownAltitude a)) := by
  have ht := history_traced hc h
  obtain ⟨s', out, dbg, x, l, h1, hst, -⟩ := one_parts hc ht.inv m
  refine ⟨s', out, dbg, x.radio, h1, ⟨_, (sense_parts hst.sense).2.1⟩, ?_⟩
  intro hok
  have hp : Tame ls l.state.position := hst.state ▸ hst.inv.position
  rcases report_eq hc x l hp with ⟨-, hr⟩ | ⟨-, lv, hlv, hid, a, ha, hr⟩
  · rw [hst.report] at hr
    cases hr
    dsimp only at hok
    by_cases hs : l.status = .OK
    · rw [if_pos hs] at hok; cases hok
    · rw [if_neg hs] at hok; exact absurd hok hs
  · rw [hst.report] at hr
    cases hr
    constructor
    · intro hu
      unfold altitudeOf at ha
      rw [if_neg (by simp [hu])] at ha
      cases ha
      rfl
    · intro hu
      refine ⟨lv, hlv, hid, ?_⟩
      unfold altitudeOf at ha
      rw [if_pos hu] at ha
      obtain ⟨al, ha1, ha2⟩ := andThen_ok ha
      refine ⟨al, ?_, ?_⟩
      · cases hq : Trilat.calculateAltitude c.env.distanceSort c.env.solve lv x.radio with
        | none => rw [hq] at ha1; cases ha1
        | some q => rw [hq] at ha1; cases ha1; rfl
      · cases ha2
        cases al <;> rfl

theorem shift_pos {cs : CommonSettings} (h : RealWindow cs) : 0 < (Radio.createRadioMeasurementBuffer cs).shiftMs := by
  have key : ∀ x : ℝ, 1 / 1000 ≤ x → 0 < Radio.truncToInt (1000 * x) := by
    intro x hx
    unfold Radio.truncToInt
    rw [if_pos (by linarith), Int.floor_pos]
    linarith
  unfold Radio.createRadioMeasurementBuffer
  dsimp only
  split_ifs with hs
  · exact key _ h.span
  · push Not at hs
    rcases h.shift with h0 | h1
    · rw [h0] at hs
      exact absurd (by simp [Radio.truncToInt]) hs.1
    · exact key _ h1

/-- The gate of the buffer is closed between messages. -/
theorem gate_runs {ls : List Level} {c : Cfg} (hc : Client ls c) (hw : RealWindow c.cs) (g : Garbage) (ms : List Measurement)
    {s : State} {outs : List (Output × DebugState)} (h : runs c (init c g) ms = .ok (s, outs)) :
    s.pre.buffer.currentTs - s.pre.buffer.lastExtractionTs < c.pre.buffer.shiftMs := by
  have hb : 0 < c.pre.buffer.shiftMs := by rw [hc.parts.pre]; exact shift_pos hw
  induction ms using List.reverseRecOn generalizing s outs with
  | nil =>
    cases h
    exact hb
  | append_singleton ms m ih =>
    obtain ⟨s1, outs1, r, h1, h2, -⟩ := runs_snoc h
    obtain ⟨x, l, hst, -⟩ := step_parts hc (traced_runs hc g ms h1).inv h2
    obtain ⟨-, -, e, -⟩ := sense_parts hst.sense
    rw [hst.state, (locate_frame hst.locate).1, e]
    simp only [Radio.extractRadioMeasurements, Radio.extractMeasurements]
    generalize (Radio.updateMeasurements c.pre s1.pre m).buffer = b
    generalize (if x.info.lastMotionTs > 0 then { b with lastStepTs := x.info.lastMotionTs } else b) = b1
    split_ifs <;> simp_all

/-- **C101.** A message that is not an admissible radio measurement gets altitude 0. -/
theorem C101_other {ls : List Level} {c : Cfg} (hc : Client ls c) (hw : RealWindow c.cs) (g : Garbage)
    (batches : List (List Measurement)) {s : State} {outs : List (Output × DebugState)}
    (h : navigateAll c (init c g) batches = .ok (s, outs)) (m : Measurement) (hm : ¬ Heard ls c.cs m)
    {s' : State} {out : Output} {dbg : DebugState} (hn : navigate c s [m] = .ok (s', [(out, dbg)])) (hok : out.status = .OK) :
    out.posAltitude = some 0 := by
  obtain ⟨s1, out1, dbg1, radio, h1, ⟨t, h2⟩, h3⟩ := C101_altitude hc g batches h m
  rw [hn] at h1
  cases h1
  have hg := gate_runs hc hw g (taken batches) (by rw [← navigateAll_eq]; exact h)
  have hr : radio = [] := by
    have he : (Radio.extractMeasurements c.env.radioSorts c.pre.buffer s.pre.buffer t).1 = [] := by
      unfold Radio.extractMeasurements
      dsimp only
      split_ifs <;> simp_all
    unfold Radio.extractRadioMeasurements at h2
    dsimp only at h2
    rw [((update_heard hc s.pre m).2 hm).2, he] at h2
    have hr0 : Radio.closestAps c.env.radioSorts c.pre [] = [] := by
      have hr : c.env.radioSorts.byRssi [] = [] := (hc.radioSorts.byRssi.perm []).eq_nil
      unfold Radio.closestAps
      simp [hr]
    rw [hr0] at h2
    simpa using h2.symm
  obtain ⟨h4, h5⟩ := h3 hok
  cases hu : c.cs.useAltitude with
  | false => exact h4 hu
  | true =>
    obtain ⟨lv, -, -, a, ha, ho⟩ := h5 hu
    rw [ho]
    by_cases hn : a = .none
    · rw [hn]; rfl
    · exfalso
      obtain ⟨res, perm, p1, p2, p3, -⟩ := Trilat.C51_four hc.sort c.env.solve lv radio a ha hn
      rw [hr] at p1
      have : perm = [] := p1.eq_nil
      rw [this] at p2
      rw [List.sublist_nil.mp p2] at p3
      simp at p3

/-- **C101.** Another altitude needs four measurements, handed out for this message, whose spheres around transmitters of the level
meet in pairs. -/
theorem C101_four {ls : List Level} {c : Cfg} (hc : Client ls c) (g : Garbage)
    (batches : List (List Measurement)) {s : State} {outs : List (Output × DebugState)}
    (h : navigateAll c (init c g) batches = .ok (s, outs)) (m : Measurement)
    {s' : State} {out : Output} {dbg : DebugState} (hn : navigate c s [m] = .ok (s', [(out, dbg)])) (hok : out.status = .OK)
    (ha : out.posAltitude ≠ some 0) :
    ∃ lv ∈ ls, lv.id = out.posLevel ∧ ∃ (t : Int) (radio res : List RadioData),
      (Radio.extractRadioMeasurements c.env.radioSorts c.pre (Radio.updateMeasurements c.pre s.pre m) t).1 = some radio ∧
      4 ≤ res.length ∧ (∃ perm : List RadioData, perm.Perm radio ∧ res.Sublist perm) ∧
      ∀ a ∈ res, ∀ b ∈ res, Trilat.Meet lv a b := by
  obtain ⟨s1, out1, dbg1, radio, h1, ⟨t, h2⟩, h3⟩ := C101_altitude hc g batches h m
  rw [hn] at h1
  cases h1
  obtain ⟨h4, h5⟩ := h3 hok
  cases hu : c.cs.useAltitude with
  | false => exact absurd (h4 hu) ha
  | true =>
    obtain ⟨lv, hlv, hid, a, hal, ho⟩ := h5 hu
    have hne : a ≠ .none := by
      intro e
      rw [ho, e] at ha
      exact ha rfl
    obtain ⟨res, perm, p1, p2, p3, p4⟩ := Trilat.C51_four hc.sort c.env.solve lv radio a hal hne
    exact ⟨lv, hlv, hid, t, radio, res, h2, p3, ⟨perm, p1, p2⟩, p4⟩

/-- Non-vacuity: the sample client has such a window and gives an answer for a satellite fix. -/
example : RealWindow exCfg.cs ∧ ¬ Heard [exLevel] exCfg.cs exFix ∧
    ∃ s out dbg, navigate exCfg (init exCfg (exMemory .GYROSCOPE)) [exFix] = .ok (s, [(out, dbg)]) ∧ out.status = .OK := by
  refine ⟨⟨by norm_num [exCfg], Or.inl rfl⟩, ?_, ?_⟩
  · rintro ⟨d, hd, -⟩
    cases hd
  · obtain ⟨s, out, dbg, h, hok, -⟩ := ex_fix .GYROSCOPE
    exact ⟨s, out, dbg, h, hok⟩

end Verif.Nav
