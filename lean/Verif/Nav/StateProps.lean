import Verif.Nav.Props

/-!
# Property theorems for the navigation client: C67, C80, C81, C82
-/

namespace Verif.Nav

open Verif.Levels
open Verif.Knn (Result)

/-! ## C67 -/

/-- **C67.** If the stored fused heading is present whenever the stored gyro heading is, the heading logic is
defined for every motion and position and this stays so. -/
theorem C67_logic (info : Fusion.MotionInfo) (fused : Position) (ph pg : Option ℝ) (h : pg.isSome → ph.isSome) :
    ∃ a v ph' pg', headingLogic info fused ph pg = .ok (a, v, ph', pg') ∧ (pg'.isSome → ph'.isSome) := by
  have hnew : ph.isSome → (if fused.isEmpty = false then some fused.heading else ph).isSome := by
    intro h; split_ifs
    · rfl
    · exact h
  unfold headingLogic
  dsimp only
  cases ph with
  | none =>
    cases pg with
    | none => exact ⟨_, _, _, _, rfl, fun h => by cases h⟩
    | some _ => cases h rfl
  | some p =>
    dsimp only
    split_ifs <;> cases pg <;> exact ⟨_, _, _, _, rfl, fun _ => by first | exact hnew rfl | rfl | simp_all⟩

/-- **C67.** When the heading of the fused position changes, the azimuth is marked as not valid (so that it is
taken from the new heading) and the new heading and the current gyro heading are stored. -/
theorem C67_change (info : Fusion.MotionInfo) (fused : Position) (h : ℝ) (pg : Option ℝ) (he : fused.isEmpty = false)
    (hh : fused.heading ≠ h) :
    headingLogic info fused (some h) pg = .ok (info.azimuth, false, some fused.heading, some info.gyroHeading) := by
  unfold headingLogic
  dsimp only
  rw [if_pos ⟨he, hh⟩, if_pos he]

/-- **C67.** While the heading of the fused position stays (or there is no fused position), a stored gyro heading makes
the azimuth valid: it is that of the stored heading, turned by what the gyro heading changed since. -/
theorem C67_carry (info : Fusion.MotionInfo) (fused : Position) (h g : ℝ)
    (hh : fused.isEmpty = false → fused.heading = h) :
    headingLogic info fused (some h) (some g) =
      .ok ((Real.pi / 2 - h) + (info.gyroHeading - g), true, some h, some g) := by
  unfold headingLogic
  dsimp only
  rw [if_neg (fun hc => hc.2 (hh hc.1))]
  congr 2
  · ring
  · congr 2
    split_ifs with he
    · rw [hh he]
    · rfl

/-- **C67.** Without a stored gyro heading and a change of heading, azimuth and validity are those of the sensor fusion,
and the heading of the fused position, if there is one, is stored. -/
theorem C67_plain (info : Fusion.MotionInfo) (fused : Position) (ph : Option ℝ)
    (hh : fused.isEmpty = false → ph = none ∨ ph = some fused.heading) :
    headingLogic info fused ph none =
      .ok (info.azimuth, info.isAzimuthValid, if fused.isEmpty = false then some fused.heading else ph, none) := by
  unfold headingLogic
  dsimp only
  cases ph with
  | none => rfl
  | some p =>
    dsimp only
    rw [if_neg]
    rintro ⟨he, hp⟩
    rcases hh he with h | h
    · cases h
    · exact hp (Option.some.inj h).symm

/-- Non-vacuity: a position with another heading, then one with the same heading after a turn of 1. -/
example (info : Fusion.MotionInfo) (p : Position) (he : p.isEmpty = false) :
    headingLogic { info with gyroHeading := 3 } { p with heading := 1 } (some 0) none =
        .ok (info.azimuth, false, some 1, some 3) ∧
      headingLogic { info with gyroHeading := 4 } { p with heading := 1 } (some 1) (some 3) =
        .ok ((Real.pi / 2 - 1) + (4 - 3), true, some 1, some 3) :=
  ⟨C67_change { info with gyroHeading := 3 } { p with heading := 1 } 0 none he one_ne_zero,
    C67_carry { info with gyroHeading := 4 } { p with heading := 1 } 1 3 (fun _ => rfl)⟩

theorem heading_runs (c : Cfg) (ms : List Measurement) (s0 s1 : State) (outs : List (Output × DebugState))
    (hn : runs c s0 ms = .ok (s1, outs)) (ih : s0.prevGyro.isSome → s0.prevHeading.isSome) :
    s1.prevGyro.isSome → s1.prevHeading.isSome := by
  induction ms generalizing s0 outs with
  | nil => cases hn; exact ih
  | cons m ms ihm =>
    obtain ⟨⟨s2, o⟩, h1, h2⟩ := andThen_ok hn
    obtain ⟨⟨s3, o3⟩, h3, h4⟩ := andThen_ok h2
    cases h4
    refine ihm _ _ h3 ?_
    unfold step at h1
    obtain ⟨x, -, h5⟩ := andThen_ok h1
    obtain ⟨l, h6, h7⟩ := andThen_ok h5
    obtain ⟨out, -, h8⟩ := andThen_ok h7
    cases h8
    unfold locate at h6
    dsimp only at h6
    split_ifs at h6
    · obtain ⟨lv, -, h9⟩ := andThen_ok h6
      unfold locateIndoor at h9
      obtain ⟨i, -, h10⟩ := andThen_ok h9
      obtain ⟨hh, h11, h12⟩ := andThen_ok h10
      obtain ⟨p, -, h13⟩ := andThen_ok h12
      cases h13
      obtain ⟨a, v, ph', pg', e, hp⟩ := C67_logic x.info
        (Post.fusePositions c.cs s0.post x.pre.currentTs i.2.1 x.outdoorPos i.1).1 s0.prevHeading s0.prevGyro ih
      rw [e] at h11
      cases h11
      exact hp
    · cases h6; exact ih
    · cases h6; exact ih

/-- **C67.** For every client (without any assumption about map and settings), after every history without
exceptions: the stored fused heading is present whenever the stored gyro heading is, so the heading logic
of the next measurement does not read an empty optional. -/
theorem C67_reachable (c : Cfg) (s : State) (h : Reachable c s) (info : Fusion.MotionInfo) (fused : Position) :
    (s.prevGyro.isSome → s.prevHeading.isSome) ∧ headingLogic info fused s.prevHeading s.prevGyro ≠ .undefined := by
  have key : s.prevGyro.isSome → s.prevHeading.isSome := by
    induction h with
    | start g => intro h; cases h
    | call batch _ hn ih =>
      rw [navigate_eq] at hn
      exact heading_runs c _ _ _ _ hn ih
  refine ⟨key, ?_⟩
  obtain ⟨a, v, ph', pg', e, -⟩ := C67_logic info fused s.prevHeading s.prevGyro key
  rw [e]
  simp

/-- **C67.** The correction of the azimuth by the gyroscope never takes place: no position has a heading, so the
stored gyro heading stays absent. -/
theorem C67_dead {ls : List Level} {c : Cfg} (hc : Client ls c) (s : State) (h : Reachable c s) :
    s.prevGyro = none ∧ s.position.heading = 0 ∧ s.indoorPos.heading = 0 ∧ s.outdoor.last.heading = 0 :=
  have hi := inv_reachable hc h
  ⟨hi.prevGyro, hi.position.heading, hi.indoor.heading, hi.outdoor.heading⟩

/-! ## C80 -/

/-- **C80.** The reported orientation.  When a level is used, it is the azimuth of the sensor fusion if that is
valid and the default `π/2` otherwise, converted to the ENU convention if the settings ask for it.  When no level
is used (in particular in silence), it is the azimuth of the sensor fusion, valid or not, never converted. -/
theorem C80_orientation {ls : List Level} {c : Cfg} (hc : Client ls c) (g : Garbage) (batches : List (List Measurement))
    {s : State} {outs : List (Output × DebugState)} (h : navigateAll c (init c g) batches = .ok (s, outs))
    (m : Measurement) :
    ∃ s' out dbg f info, navigate c s [m] = .ok (s', [(out, dbg)]) ∧
      Fusion.calculateDisplacement c.fusion s.fusion (lastSensor g.sensor (taken batches ++ [m])) m.ts = some (f, info) ∧
      (out.status = .OK →
        let north := if info.isAzimuthValid then info.azimuth else Real.pi / 2
        let used := Fusion.toMinusPiPi (if c.cs.useEnuAzimuth then Real.pi / 2 - north else north)
        let notUsed := Fusion.toMinusPiPi info.azimuth
        (out.posOrientation = some used ∨ out.posOrientation = some notUsed) ∧
        (Silent ls c.cs (taken batches) m → out.posOrientation = some notUsed) ∧
        (Fresh ls c.cs (taken batches) m → 0 < c.cs.noActionTimeThreshold → ∀ x, sense c s m = .ok x →
          (∃ lv ∈ ls, lv.id = x.levelId) → out.posOrientation = some used)) := by
  have ht := history_traced hc h
  obtain ⟨s', out, dbg, x, l, h1, hst, -⟩ := one_parts hc ht.inv m
  have es : (Radio.updateMeasurements c.pre s.pre m).sensor = lastSensor g.sensor (taken batches ++ [m]) := by
    rw [update_sensor, ht.sensor]; exact (lastSensor_snoc _ _ _).symm
  have hf := (sense_parts hst.sense).1
  rw [es] at hf
  refine ⟨s', out, dbg, x.fusion, x.info, h1, hf, ?_⟩
  intro hok
  have hor := (stepped_shows hc hst).2.1 hok
  have hused : (∃ lv ∈ ls, lv.id = timedOutLevel c x) → l.azimuth =
      if c.cs.useEnuAzimuth then Real.pi / 2 - (if x.info.isAzimuthValid then x.info.azimuth else Real.pi / 2)
      else (if x.info.isAzimuthValid then x.info.azimuth else Real.pi / 2) := by
    intro hh
    obtain ⟨lv, i, p, ph, ha⟩ := locate_level hc ht.inv hst.sensed hh
    have hl := ha.located
    rw [hst.locate] at hl
    cases hl
    change finalAzimuth _ _ _ _ = _
    unfold finalAzimuth
    dsimp only
    rw [ha.tame.heading]
    have e0 : -(0 - Real.pi / 2) = Real.pi / 2 := by ring
    rw [e0]
    split_ifs <;> ring
  have hnot : (¬ ∃ lv ∈ ls, lv.id = timedOutLevel c x) → l.azimuth = x.info.azimuth := by
    intro hh
    obtain ⟨g1, g2⟩ := locate_no_level hc s hh
    have hl := hst.locate
    cases he : x.outdoorPos.isEmpty with
    | false => rw [g1 he] at hl; cases hl; rfl
    | true => rw [g2 he] at hl; cases hl; rfl
  refine ⟨?_, ?_, ?_⟩
  · rw [hor]
    by_cases hh : ∃ lv ∈ ls, lv.id = timedOutLevel c x
    · left; rw [hused hh]
    · right; rw [hnot hh]
  · intro hsil
    rw [hor, hnot]
    rintro ⟨lv, hlv, hid⟩
    rw [silent_level hc ht hsil hst.sense] at hid
    exact hc.map.named lv hlv hid
  · intro hfr ha y hy hh
    rw [hst.sense] at hy
    cases hy
    rw [hor, hused]
    rw [fresh_level hc ha ht hfr hst.sense]
    exact hh

/-! ## C81 -/

/-- **C81.** The no-action threshold has no effect: with any other positive one the client does the same. -/
theorem C81_no_action {ls : List Level} {c : Cfg} (hc : Client ls c) (ha : 0 < c.noAction) (s : State) (h : Reachable c s)
    (N : Int) (hN : 0 < N) (batch : List Measurement) :
    navigate { c with noAction := N } s batch = navigate c s batch := by
  have hi := inv_reachable hc h
  rw [navigate_eq, navigate_eq]
  generalize records batch = ms
  clear h
  induction ms generalizing s with
  | nil => rfl
  | cons m ms ih =>
    obtain ⟨x, l, out, h1, h2, h3, h4, -, h6, -⟩ := step_defined hc hi m
    have e1 : sense { c with noAction := N } s m = .ok x := h1
    have et : timedOutLevel { c with noAction := N } x = timedOutLevel c x := by
      rw [timedOut_eq hi ha h1]
      obtain ⟨-, -, -, -, -, -, e4, -⟩ := sense_parts h1
      unfold timedOutLevel
      dsimp only
      rw [e4, if_neg]
      rintro ⟨-, h2, h3⟩
      rcases motion_now hi h1 with h0 | h0 <;> rw [h0] at h2 h3 <;> omega
    have e2 : locate { c with noAction := N } s x = .ok l := by
      rw [← h2]
      unfold locate
      rw [et]
      rfl
    have e3 : step { c with noAction := N } s m = step c s m := by
      rw [h4]
      unfold step
      rw [e1]
      simp only [andThen]
      rw [e2]
      simp only
      have : report { c with noAction := N } x l = report c x l := rfl
      rw [this, h3]
    change andThen (step _ s m) _ = andThen (step c s m) _
    rw [e3, h4]
    simp only [andThen]
    rw [ih _ h6]

end Verif.Nav
