import Verif.Checked.OpsLemmas
import Verif.Checked.Post

/-!
# The checked position estimators and post-processor never fail
-/

namespace Verif.Checked

open Verif Verif.Levels Verif.Smooth
open Verif.Geo (XYPoint GeoPoint)
open Verif.Geometry (LocationPoint)
open Verif.Post (PostState)

/-! ## Settings -/

theorem trunc_safe {x : ℝ} (h : Moderate x) :
    -10 ^ 18 ≤ Radio.truncToInt (1000 * x) ∧ Radio.truncToInt (1000 * x) ≤ 10 ^ 18 := by
  obtain ⟨h1, h2⟩ := abs_le.mp h
  unfold Radio.truncToInt
  split_ifs with h0
  · have a : (0 : Int) ≤ ⌊1000 * x⌋ := Int.floor_nonneg.mpr h0
    have b : (⌊1000 * x⌋ : ℝ) ≤ 10 ^ 18 := (Int.floor_le _).trans (by linarith)
    refine ⟨by omega, ?_⟩
    exact_mod_cast b
  · have a : ⌈1000 * x⌉ ≤ 0 := Int.ceil_le.mpr (by push_cast; linarith)
    have b : (-10 ^ 18 : ℝ) ≤ ⌈1000 * x⌉ := le_trans (by linarith) (Int.le_ceil _)
    refine ⟨?_, by omega⟩
    exact_mod_cast b

theorem toLong_eq {x : ℝ} (h : Moderate x) : toLong (1000 * x) = some (Radio.truncToInt (1000 * x)) := by
  obtain ⟨h1, h2⟩ := trunc_safe h
  unfold toLong
  rw [if_pos]
  unfold InLong
  omega

theorem toLong_eq' {x : ℝ} (h : Moderate x) : toLong (1000 * x) = some (Post.toLongLong (1000 * x)) := toLong_eq h

/-- The settings of the post-processor. -/
structure SettingsOk (cs : CommonSettings) : Prop where
  stopDetection : Moderate cs.stopDetectionTime
  stopUpdate : Moderate cs.stopUpdateTime
  deadReckoning : Moderate cs.deadReckoningTime
  gps : 0 ≤ cs.minGpsDeviation
  prior : cs.fuseGps = true → 0 ≤ cs.priorDeviation
  speed : cs.fuseGps = true → 0 ≤ cs.averageMovSpeed

/-! ## Zone and satellite location -/

theorem zone_eq (A B : List (String × ℝ)) (l : Level) (h : (StdMap.find? B l.id).getD 0 ≠ 0) (ts : Int)
    (msr : List RadioData) : zonePosition A B l ts msr = some (Estim.zonePosition A B l ts msr) := by
  unfold zonePosition Estim.zonePosition
  by_cases h1 : msr.isEmpty = true
  · rw [if_pos h1, if_pos h1]
  rw [if_neg h1, if_neg h1]
  cases Estim.strongest (getLevelRadioMeasurements RadioData.id l msr) with
  | none => rfl
  | some n =>
    simp only [div_eq h, sqrt_eq (Real.exp_pos _).le, Option.bind_eq_bind, Option.bind_some]
    rfl

theorem zone_shape (A B : List (String × ℝ)) (l : Level) (ts : Int) (msr : List RadioData) :
    (Estim.zonePosition A B l ts msr).2 = Position.default ∨
      ((Estim.zonePosition A B l ts msr).2.ts = ts ∧ 1 ≤ (Estim.zonePosition A B l ts msr).2.deviationM) := by
  unfold Estim.zonePosition
  split_ifs
  · exact Or.inl rfl
  · split
    · exact Or.inl rfl
    · refine Or.inr ⟨rfl, ?_⟩
      dsimp only
      have := Real.sqrt_nonneg (Real.exp (((StdMap.find? A l.id).getD 0 - (‹RadioData›).rssi) ÷ (StdMap.find? B l.id).getD 0))
      linarith

theorem sumSq_nonneg (f : XYPoint → ℝ) (m : ℝ) (buf : List XYPoint) (a : ℝ) (ha : 0 ≤ a) :
    0 ≤ buf.foldl (fun s q => s + (f q - m) * (f q - m)) a := by
  induction buf generalizing a with
  | nil => exact ha
  | cons q l ih => exact ih _ (add_nonneg ha (mul_self_nonneg _))

theorem sigmaAccepts_eq (w : ℕ) (hw : 0 < w) (d : ℝ) (buf : List XYPoint) (p : XYPoint) :
    sigmaAccepts w d buf p = some (Estim.sigmaAccepts w d buf p) := by
  have h0 : (w : ℝ) ≠ 0 := by positivity
  have key : ∀ (f : XYPoint → ℝ) (m : ℝ), 0 ≤ buf.foldl (fun s q => s + (f q - m) * (f q - m)) 0 ÷ (w : ℝ) := by
    intro f m
    rw [divide_eq h0]
    exact div_nonneg (sumSq_nonneg f m buf 0 le_rfl) (by positivity)
  unfold sigmaAccepts Estim.sigmaAccepts
  simp only [div_eq h0, Option.bind_eq_bind, Option.bind_some]
  rw [sqrt_eq' (key XYPoint.x _), Option.bind_some, sqrt_eq' (key XYPoint.y _), Option.bind_some]

theorem sigmaAdd_eq (w : ℕ) (d : ℝ) (buf : List XYPoint) (p : XYPoint) :
    sigmaAdd w d buf p = some (Estim.sigmaAdd w d buf p) := by
  unfold sigmaAdd Estim.sigmaAdd
  split_ifs with h
  · cases buf with
    | nil => rfl
    | cons q l =>
      simp only [sigmaAccepts_eq w (by rw [← h]; simp), Option.bind_eq_bind, Option.bind_some]
  · rfl

theorem outdoorLevels_eq (s : CommonSettings) (st : Estim.OutdoorState) (g : Estim.GpsPosition) (sats : Int) (ls : List Level) :
    outdoorLevels s st g sats ls = some (Estim.outdoorLevels s st g sats ls) := by
  induction ls with
  | nil => rfl
  | cons l ls ih =>
    unfold outdoorLevels Estim.outdoorLevels
    dsimp only
    by_cases h1 : Estim.Box.Covers l.geometry.boundingBox
        (Geo.gpsToLocal { latitude := g.latitude, longitude := g.longitude } l.bindingPoint) ∨ s.useGpsOutsideMap = true
    · rw [if_pos h1, if_pos h1]
      by_cases h2 : g.ts ≠ st.last.ts
      · by_cases h3 : s.useGpsSigmaFilter = true
        · simp only [if_pos h2, if_pos h3, sigmaAdd_eq]
          cases Estim.sigmaAdd s.sigmaFilterWindow s.sigmaFilterDelta st.buf
            (Geo.gpsToLocal ⟨g.latitude, g.longitude⟩ l.bindingPoint) with
          | none => rfl
          | some r => obtain ⟨v, b⟩ := r; simp only [bind2_some]; split_ifs <;> rfl
        · simp only [if_pos h2, if_neg h3, bind2_some]; split_ifs <;> rfl
      · simp only [if_neg h2, bind2_some]; split_ifs <;> rfl
    · rw [if_neg h1, if_neg h1]
      exact ih

/-- The estimator's last position has a time stamp in range and a deviation of at least zero. -/
structure PosOk (p : Position) : Prop where
  ts : Safe p.ts
  dev : 0 ≤ p.deviationM

theorem pos_default : PosOk Position.default := ⟨safe_zero, le_rfl⟩

theorem outdoor_eq (s : CommonSettings) (c : LevelCollector) (st : Estim.OutdoorState) (h : Safe st.last.ts) (ts : Int)
    (ht : Safe ts) (sensor : SensorMeasurement) (nmea : NmeaMeasurement) (f : Bool) :
    outdoorPosition s c st ts sensor nmea f = some (Estim.outdoorPosition s c st ts sensor nmea f) := by
  unfold outdoorPosition Estim.outdoorPosition
  cases hg : Estim.extractGpsPosition s ts sensor with
  | none =>
    dsimp only
    split_ifs <;> simp_all [sub_eq]
  | some g => exact outdoorLevels_eq s _ g _ c.levels

theorem outdoorLevels_shape (s : CommonSettings) (st : Estim.OutdoorState) (g : Estim.GpsPosition) (sats : Int)
    (ls : List Level) (r : Position × Estim.OutdoorState) (hr : Estim.outdoorLevels s st g sats ls = some r) :
    (r.1 = Position.default ∧ r.2.last = st.last) ∨
      (r.1 = r.2.last ∧ r.1.ts = g.ts ∧ r.1.deviationM = g.deviation ∧ r.1.isEmpty = false) := by
  induction ls with
  | nil => cases hr; exact Or.inl ⟨rfl, rfl⟩
  | cons l ls ih =>
    unfold Estim.outdoorLevels at hr
    dsimp only at hr
    by_cases h1 : Estim.Box.Covers l.geometry.boundingBox
        (Geo.gpsToLocal { latitude := g.latitude, longitude := g.longitude } l.bindingPoint) ∨ s.useGpsOutsideMap = true
    · rw [if_pos h1] at hr
      split at hr
      · cases hr
      · split at hr
        · cases hr; exact Or.inl ⟨rfl, rfl⟩
        · cases hr; exact Or.inr ⟨rfl, rfl, rfl, rfl⟩
    · rw [if_neg h1] at hr
      exact ih hr

/-- The position given is empty, or it is the one stored; a stored position changes only to one of the present time. -/
theorem outdoor_shape (s : CommonSettings) (hs : 0 ≤ s.minGpsDeviation) (c : LevelCollector) (st : Estim.OutdoorState) (ts : Int)
    (sensor : SensorMeasurement) (nmea : NmeaMeasurement) (f : Bool) (r : Position × Estim.OutdoorState)
    (hr : Estim.outdoorPosition s c st ts sensor nmea f = some r) :
    (r.1 = Position.default ∨ r.1 = r.2.last) ∧
      (r.2.last = st.last ∨ (r.2.last.ts = ts ∧ 0 ≤ r.2.last.deviationM ∧ r.2.last.isEmpty = false)) := by
  unfold Estim.outdoorPosition at hr
  cases hg : Estim.extractGpsPosition s ts sensor with
  | none =>
    rw [hg] at hr
    dsimp only at hr
    split_ifs at hr <;> cases hr <;> simp
  | some g =>
    rw [hg] at hr
    dsimp only at hr
    have e : g.ts = ts ∧ 0 ≤ g.deviation := by
      unfold Estim.extractGpsPosition at hg
      split_ifs at hg
      cases hg
      exact ⟨rfl, hs.trans (le_max_right _ _)⟩
    have hl : ∀ st1 : Estim.OutdoorState, st1.last = st.last → Estim.outdoorLevels s st1 g
        (Estim.extractNumberOfSatellites nmea) c.levels = some r →
        (r.1 = Position.default ∨ r.1 = r.2.last) ∧
        (r.2.last = st.last ∨ (r.2.last.ts = ts ∧ 0 ≤ r.2.last.deviationM ∧ r.2.last.isEmpty = false)) := by
      intro st1 h1 h2
      rcases outdoorLevels_shape s st1 g _ c.levels r h2 with ⟨a, b⟩ | ⟨a, b, d, k⟩
      · exact ⟨Or.inl a, Or.inl (b.trans h1)⟩
      · refine ⟨Or.inr a, Or.inr ?_⟩
        rw [← a, b, d, k]
        exact ⟨e.1, e.2, rfl⟩
    refine hl _ ?_ hr
    split_ifs <;> rfl

/-! ## Geometry -/

theorem getDist_eq (ax ay bx by' : ℝ) : getDist ax ay bx by' = some (Geometry.getDist ax ay bx by') :=
  sqrt_eq (add_nonneg (mul_self_nonneg _) (mul_self_nonneg _))

theorem getProjection_eq (ax ay bx by' ox oy : ℝ) :
    getProjection ax ay bx by' ox oy = some (Geometry.getProjection ax ay bx by' ox oy) := by
  unfold getProjection Geometry.getProjection
  dsimp only
  by_cases h : (bx - ax) * (bx - ax) + (by' - ay) * (by' - ay) > Geometry.eps
  · have h0 : (bx - ax) * (bx - ax) + (by' - ay) * (by' - ay) ≠ 0 := by
      have : 0 < Geometry.eps := by unfold Geometry.eps; norm_num
      exact (this.trans h).ne'
    simp only [if_pos h, div_eq h0, Option.bind_eq_bind, Option.bind_some]
  · simp only [if_neg h, Option.bind_eq_bind, Option.bind_some]

theorem edgeProjection_eq (p : LocationPoint) (u v : XYPoint) :
    edgeProjection p u v = some (NavGraph.edgeProjection p u v) := by
  simp only [edgeProjection, NavGraph.edgeProjection, getProjection_eq, Option.bind_eq_bind, Option.bind_some]

theorem projLoop_eq (g : NavGraph.Graph XYPoint) (p : LocationPoint) (es : List (Int ×ₗ Int))
    (acc : LocationPoint × Option ℝ) : projLoop g p es acc = some (NavGraph.projLoop g p es acc) := by
  induction es generalizing acc with
  | nil => rfl
  | cons e es ih =>
    obtain ⟨p0, d0⟩ := acc
    unfold projLoop NavGraph.projLoop
    cases NavGraph.getVertex g (ofLex e).1 with
    | none => cases NavGraph.getVertex g (ofLex e).2 <;> rfl
    | some u =>
      cases NavGraph.getVertex g (ofLex e).2 with
      | none => rfl
      | some v =>
        simp only [edgeProjection_eq, getDist_eq, Option.bind_eq_bind, Option.bind_some]
        cases d0 with
        | none => exact ih _
        | some d =>
          dsimp only
          split_ifs <;> exact ih _

theorem projectOnGraph_eq (g : NavGraph.Graph XYPoint) (p : LocationPoint) :
    projectOnGraph g p = some (NavGraph.projectOnGraph g p) := by
  unfold projectOnGraph NavGraph.projectOnGraph
  rw [projLoop_eq]
  cases NavGraph.projLoop g p g.edges (p, none) <;> rfl

/-! ## Smoothers -/

theorem alpha_range (cs : CommonSettings) : 1 / 10 ≤ (abParams cs).alpha ∧ (abParams cs).alpha ≤ 9 / 10 := by
  unfold abParams MIN_ALPHA MAX_ALPHA
  dsimp only
  have h1 : (0 : ℝ) ≤ min 1 (max 0 cs.smoothing) := le_min zero_le_one (le_max_left _ _)
  have h2 : min 1 (max 0 cs.smoothing) ≤ (1 : ℝ) := min_le_left _ _
  constructor <;> linarith

theorem gain_range (cs : CommonSettings) (s : AbState) (pos : Position) :
    1 / 10 ≤ Smooth.abGain (abParams cs) s pos ∧ Smooth.abGain (abParams cs) s pos ≤ 9 / 10 := by
  unfold Smooth.abGain
  split_ifs
  · unfold MIN_ALPHA MAX_ALPHA
    exact ⟨le_min (le_max_left _ _) (by norm_num), min_le_right _ _⟩
  · exact alpha_range cs

theorem gain_eq (cs : CommonSettings) (s : AbState) (pos : Position) (hs : 0 ≤ s.position.deviationM)
    (hp : 0 ≤ pos.deviationM) : abGain (abParams cs) s pos = some (Smooth.abGain (abParams cs) s pos) := by
  unfold abGain Smooth.abGain
  have h0 : pos.deviationM + s.position.deviationM + 1 / 2 ≠ 0 := by positivity
  split_ifs
  · simp only [div_eq h0, Option.bind_eq_bind, Option.bind_some]
  · rfl

theorem abSmooth_eq (cs : CommonSettings) (al : ℝ → ℝ → Prop) (s : AbState) (pos : Position) (hs : PosOk s.position)
    (hp : PosOk pos) : abSmooth (abParams cs) al s pos = some (Smooth.abSmooth (abParams cs) al s pos) := by
  unfold abSmooth Smooth.abSmooth
  by_cases h : pos.ts > s.position.ts
  · rw [if_pos h, if_pos h]
    obtain ⟨g1, g2⟩ := gain_range cs s pos
    have ht : ((pos.ts - s.position.ts : Int) : ℝ) / 1000 ≠ 0 := by
      have : (0 : ℝ) < ((pos.ts - s.position.ts : Int) : ℝ) := by exact_mod_cast sub_pos.mpr h
      positivity
    have h2 : 2 - Smooth.abGain (abParams cs) s pos ≠ 0 := by linarith
    simp only [sub_eq hp.ts hs.ts, gain_eq cs s pos hs.dev hp.dev, div_eq h2, div_eq ht, Option.bind_eq_bind, Option.bind_some]
    rw [sqrt_eq (add_nonneg (mul_self_nonneg _) (mul_self_nonneg _)), Option.bind_some]
    split_ifs <;> rfl
  · rw [if_neg h, if_neg h]

theorem abSmooth_ok (cs : CommonSettings) (al : ℝ → ℝ → Prop) (s : AbState) (pos : Position) (hs : PosOk s.position)
    (hp : PosOk pos) : PosOk (Smooth.abSmooth (abParams cs) al s pos).1 ∧
      PosOk (Smooth.abSmooth (abParams cs) al s pos).2.position := by
  unfold Smooth.abSmooth
  by_cases h : pos.ts > s.position.ts
  · rw [if_pos h]
    obtain ⟨g1, g2⟩ := gain_range cs s pos
    have ht : 0 ≤ ((pos.ts - s.position.ts : Int) : ℝ) / 1000 := by
      have : (0 : ℝ) ≤ ((pos.ts - s.position.ts : Int) : ℝ) := by exact_mod_cast (sub_pos.mpr h).le
      positivity
    have hd : ∀ v : ℝ, 0 ≤ v → 0 ≤ (1 - Smooth.abGain (abParams cs) s pos) *
        (pos.deviationM + ((pos.ts - s.position.ts : Int) : ℝ) / 1000 * v) + Smooth.abGain (abParams cs) s pos * pos.deviationM := by
      intro v hv
      have a1 := mul_nonneg (by linarith : 0 ≤ 1 - Smooth.abGain (abParams cs) s pos)
        (add_nonneg hp.dev (mul_nonneg ht hv))
      have a2 := mul_nonneg (by linarith : 0 ≤ Smooth.abGain (abParams cs) s pos) hp.dev
      linarith
    dsimp only
    split_ifs
    · exact ⟨hp, hp⟩
    · exact ⟨⟨hp.ts, hd _ (Real.sqrt_nonneg _)⟩, ⟨hp.ts, hd _ (Real.sqrt_nonneg _)⟩⟩
    · exact ⟨⟨hp.ts, hp.dev⟩, ⟨hp.ts, hp.dev⟩⟩
  · rw [if_neg h]
    exact ⟨hs, hs⟩

theorem lsSmooth_eq (P : FitParams) (ub : Bool) (al : ℝ → ℝ → Prop) (s : LsState) (hs : Safe s.startTime) (pos : Position)
    (hp : Safe pos.ts) : lsSmooth P ub al s pos = some (Smooth.lsSmooth P ub al s pos) := by
  unfold lsSmooth Smooth.lsSmooth
  by_cases h : s.wasCalled = false
  · rw [if_pos h, if_pos h]
  · rw [if_neg h, if_neg h]
    simp only [sub_eq hp hs, Option.bind_eq_bind, Option.bind_some]
    cases addSequencePoint P s.fitX (((pos.ts - s.startTime : Int) : ℝ) / 1000) pos.x with
    | none => cases addSequencePoint P s.fitY (((pos.ts - s.startTime : Int) : ℝ) / 1000) pos.y <;> rfl
    | some fx =>
      cases addSequencePoint P s.fitY (((pos.ts - s.startTime : Int) : ℝ) / 1000) pos.y with
      | none => rfl
      | some fy =>
        dsimp only
        split_ifs
        · rfl
        · split <;> rename_i h1 h2
          · simp only [h1, h2]
          · split <;> rename_i h3 h4
            · exact absurd h4 (h2 _ _ h3)
            · rfl

theorem lsSmooth_ok (P : FitParams) (ub : Bool) (al : ℝ → ℝ → Prop) (s : LsState) (hs : Safe s.startTime) (pos : Position)
    (hp : PosOk pos) (r : Position × LsState) (hr : Smooth.lsSmooth P ub al s pos = some r) :
    PosOk r.1 ∧ Safe r.2.startTime := by
  unfold Smooth.lsSmooth at hr
  split_ifs at hr with h
  · cases hr; exact ⟨hp, hp.ts⟩
  · dsimp only at hr
    split at hr
    · split_ifs at hr
      · cases hr; exact ⟨hp, hp.ts⟩
      · split at hr <;> cases hr
        · exact ⟨⟨hp.ts, hp.dev⟩, hs⟩
        · exact ⟨hp, hs⟩
    · cases hr

theorem interpolate_eq (s : TimeState) (h1 : Safe s.prev.ts) (h2 : Safe s.next.ts) (last : Position) (ts : Int) (ht : Safe ts) :
    timeInterpolate s last ts = some (Smooth.timeInterpolate s last ts) := by
  unfold timeInterpolate Smooth.timeInterpolate
  split_ifs with h
  · rfl
  · have h0 : ((s.next.ts - s.prev.ts : Int) : ℝ) ≠ 0 := by exact_mod_cast sub_ne_zero.mpr h
    simp only [sub_eq ht h2, sub_eq h2 h1, div_eq h0, Option.bind_eq_bind, Option.bind_some]
    split_ifs <;> rfl

theorem timeSmooth_eq (s : TimeState) (h1 : Safe s.prev.ts) (h2 : Safe s.next.ts) (last : Position) (hl : Safe last.ts)
    (ts : Int) (ht : Safe ts) : timeSmooth s last ts = some (Smooth.timeSmooth s last ts) := by
  unfold timeSmooth Smooth.timeSmooth
  by_cases c1 : ts < last.ts
  · rw [if_pos c1, if_pos c1]
  rw [if_neg c1, if_neg c1]
  by_cases c2 : s.prev.levelId ≠ last.levelId ∨ s.next.levelId ≠ last.levelId
  · rw [if_pos c2, if_pos c2]
  rw [if_neg c2, if_neg c2]
  by_cases c3 : s.prev.isEmpty ∨ s.next.isEmpty ∨ last.isEmpty
  · rw [if_pos c3, if_pos c3]
  rw [if_neg c3, if_neg c3]
  dsimp only
  rw [interpolate_eq _ (by split_ifs <;> assumption) (by split_ifs <;> assumption) last ts ht]
  rfl

theorem timeSmooth_ok (s : TimeState) (h1 : Safe s.prev.ts) (h2 : Safe s.next.ts) (last : Position) (hl : Safe last.ts)
    (ts : Int) : Safe (Smooth.timeSmooth s last ts).2.prev.ts ∧ Safe (Smooth.timeSmooth s last ts).2.next.ts := by
  unfold Smooth.timeSmooth
  split_ifs <;> dsimp only <;> first | exact ⟨h1, h2⟩ | exact ⟨hl, hl⟩ | exact ⟨h2, hl⟩

/-! ## Post-processor -/

/-- What a smoother must satisfy. -/
def SmootherOk (cs : CommonSettings) : Post.Smoother → Prop
  | .ab P s => P = abParams cs ∧ PosOk s.position
  | .ls _ _ s => Safe s.startTime

theorem smooth_eq (cs : CommonSettings) (al : ℝ → ℝ → Prop) (sm : Post.Smoother) (h : SmootherOk cs sm) (pos : Position)
    (hp : PosOk pos) : smooth al sm pos = some (sm.smooth al pos) := by
  cases sm with
  | ab P s =>
    obtain ⟨rfl, hs⟩ := h
    simp only [smooth, Post.Smoother.smooth, abSmooth_eq cs al s pos hs hp, Option.bind_eq_bind, Option.bind_some]
  | ls P ub s =>
    simp only [smooth, Post.Smoother.smooth, lsSmooth_eq P ub al s h pos hp.ts]
    cases Smooth.lsSmooth P ub al s pos <;> rfl

theorem smooth_ok (cs : CommonSettings) (al : ℝ → ℝ → Prop) (sm : Post.Smoother) (h : SmootherOk cs sm) (pos : Position)
    (hp : PosOk pos) (r : Position × Post.Smoother) (hr : sm.smooth al pos = some r) : PosOk r.1 ∧ SmootherOk cs r.2 := by
  cases sm with
  | ab P s =>
    obtain ⟨rfl, hs⟩ := h
    cases hr
    exact ⟨(abSmooth_ok cs al s pos hs hp).1, rfl, (abSmooth_ok cs al s pos hs hp).2⟩
  | ls P ub s =>
    simp only [Post.Smoother.smooth, Option.map_eq_some_iff] at hr
    obtain ⟨q, hq, rfl⟩ := hr
    exact lsSmooth_ok P ub al s h pos hp q hq

/-- What the post-processor's state must satisfy. -/
structure PostOk (cs : CommonSettings) (s : PostState) : Prop where
  indoor : PosOk s.indoorPos
  outdoor : PosOk s.outdoorPos
  smoother : SmootherOk cs s.smoother
  prev : Safe s.time.prev.ts
  next : Safe s.time.next.ts
  step : Safe s.lastStepTs
  extraction : Safe s.lastExtractionTs
  indoorDev : cs.fuseGps = true → 0 ≤ s.indoorDev ∧ (s.indoorPos.isEmpty = false → 0 < s.indoorDev)
  outdoorDev : cs.fuseGps = true → 0 ≤ s.outdoorDev

theorem post_init (cs : CommonSettings) (hs : SettingsOk cs) : PostOk cs (Post.postInit cs) := by
  refine ⟨pos_default, pos_default, ?_, safe_zero, safe_zero, safe_neg_one, safe_zero,
    fun h => ⟨hs.prior h, fun h1 => by cases h1⟩, fun h => hs.prior h⟩
  unfold Post.postInit
  dsimp only
  split_ifs
  · exact ⟨rfl, pos_default⟩
  · exact safe_zero

theorem priorDev_eq (cs : CommonSettings) (a b : Position) (ha : Safe a.ts) (hb : Safe b.ts) (d : ℝ) :
    priorDev cs a b d = some (Post.priorDev cs a b d) := by
  unfold priorDev Post.priorDev
  split_ifs
  · rfl
  · simp only [sub_eq hb ha, Option.bind_eq_bind, Option.bind_some]

theorem priorDev_nonneg (cs : CommonSettings) (h1 : 0 ≤ cs.priorDeviation) (h2 : 0 ≤ cs.averageMovSpeed) (a b : Position)
    (h : a.isEmpty = false → a.ts ≤ b.ts) (d : ℝ) (hd : 0 ≤ d) : 0 ≤ Post.priorDev cs a b d := by
  unfold Post.priorDev
  split_ifs with he
  · exact h1
  · have hle : (0 : ℝ) ≤ ((b.ts - a.ts : Int) : ℝ) := by
      have := h (by simpa using he)
      exact_mod_cast sub_nonneg.mpr this
    exact le_min h1 (by positivity)

theorem fillIndoor_eq (cs : CommonSettings) (s : PostState) (h : PostOk cs s) (p : Position) (hp : PosOk p) :
    fillIndoor cs s p = some (Post.fillIndoor cs s p) := by
  unfold fillIndoor Post.fillIndoor
  split_ifs
  · rfl
  · simp only [priorDev_eq cs _ _ h.indoor.ts hp.ts, Option.bind_eq_bind, Option.bind_some]

theorem fillOutdoor_eq (cs : CommonSettings) (s : PostState) (h : PostOk cs s) (p : Position) (hp : PosOk p) :
    fillOutdoor cs s p = some (Post.fillOutdoor cs s p) := by
  unfold fillOutdoor Post.fillOutdoor
  split_ifs
  · rfl
  · simp only [priorDev_eq cs _ _ h.outdoor.ts hp.ts, Option.bind_eq_bind, Option.bind_some]

/-- A given position is not older than the stored one. -/
def Newer (cs : CommonSettings) (stored given : Position) : Prop :=
  cs.fuseGps = true → given.isEmpty = false → stored.isEmpty = false → stored.ts ≤ given.ts

theorem fillIndoor_ok (cs : CommonSettings) (hs : SettingsOk cs) (s : PostState) (h : PostOk cs s) (p : Position) (hp : PosOk p)
    (hd : p.isEmpty = false → 1 ≤ p.deviationM) (hn : Newer cs s.indoorPos p) : PostOk cs (Post.fillIndoor cs s p) := by
  unfold Post.fillIndoor
  split_ifs with he
  · exact h
  · have he' : p.isEmpty = false := by simpa using he
    refine ⟨hp, h.outdoor, h.smoother, h.prev, h.next, h.step, h.extraction, fun hf => ?_, h.outdoorDev⟩
    have h1 := priorDev_nonneg cs (hs.prior hf) (hs.speed hf) s.indoorPos p (hn hf he') s.indoorDev (h.indoorDev hf).1
    have h2 := hd he'
    dsimp only
    exact ⟨by linarith, fun _ => by linarith⟩

theorem fillOutdoor_ok (cs : CommonSettings) (hs : SettingsOk cs) (s : PostState) (h : PostOk cs s) (p : Position) (hp : PosOk p)
    (hn : Newer cs s.outdoorPos p) : PostOk cs (Post.fillOutdoor cs s p) := by
  unfold Post.fillOutdoor
  split_ifs with he
  · exact h
  · have he' : p.isEmpty = false := by simpa using he
    refine ⟨h.indoor, hp, h.smoother, h.prev, h.next, h.step, h.extraction, h.indoorDev, fun hf => ?_⟩
    have h1 := priorDev_nonneg cs (hs.prior hf) (hs.speed hf) s.outdoorPos p (hn hf he') s.outdoorDev (h.outdoorDev hf)
    have h2 := hp.dev
    dsimp only
    linarith

theorem delay_eq (t : Int) (ht : Safe t) (p : Position) (hp : Safe p.ts) : delay t p = some (Post.delay t p) := by
  unfold delay Post.delay
  split_ifs
  · simp only [sub_eq ht hp, Option.bind_eq_bind, Option.bind_some]
  · rfl

theorem delay_nonneg (t : Int) (p : Position) : 0 ≤ Post.delay t p := by
  unfold Post.delay
  split_ifs with h
  · have : (0 : ℝ) ≤ ((t - p.ts : Int) : ℝ) := by exact_mod_cast sub_nonneg.mpr h
    positivity
  · exact le_rfl

theorem chooseFused_eq (cs : CommonSettings) (hs : SettingsOk cs) (s : PostState) (h : PostOk cs s) (t : Int) (ht : Safe t)
    (i o : Position) (hi : PosOk i) (ho : PosOk o) (st : NavigationStatus) :
    chooseFused cs s t i o st = some (Post.chooseFused cs s t i o st) ∧ PosOk (Post.chooseFused cs s t i o st) := by
  unfold chooseFused Post.chooseFused
  by_cases c1 : cs.useInstantGpsPosition = true ∧ o.isEmpty = false
  · rw [if_pos c1, if_pos c1]; exact ⟨rfl, ho⟩
  rw [if_neg c1, if_neg c1]
  by_cases c2 : cs.preferIndoorSolution = true ∧ i.isEmpty = false ∧ st = .OK
  · rw [if_pos c2, if_pos c2]; exact ⟨rfl, hi⟩
  rw [if_neg c2, if_neg c2]
  by_cases c3 : cs.useGps = false ∨ s.outdoorPos.isEmpty = true
  · rw [if_pos c3, if_pos c3]; exact ⟨rfl, h.indoor⟩
  rw [if_neg c3, if_neg c3]
  by_cases c4 : s.indoorPos.isEmpty = true
  · rw [if_pos c4, if_pos c4]; exact ⟨rfl, h.outdoor⟩
  rw [if_neg c4, if_neg c4]
  simp only [delay_eq t ht _ h.indoor.ts, delay_eq t ht _ h.outdoor.ts, getDist_eq, Option.bind_eq_bind, Option.bind_some]
  by_cases c5 : Post.delay t s.indoorPos > cs.positionIsTooOldSec
  · rw [if_pos c5, if_pos c5]; exact ⟨rfl, h.outdoor⟩
  rw [if_neg c5, if_neg c5]
  by_cases c6 : Post.delay t s.outdoorPos > cs.positionIsTooOldSec
  · rw [if_pos c6, if_pos c6]; exact ⟨rfl, h.indoor⟩
  rw [if_neg c6, if_neg c6]
  by_cases c7 : cs.fuseGps = true ∧ s.indoorPos.deviationM + s.outdoorPos.deviationM + cs.fuseGpsBorderM >
      Geometry.getDist s.indoorPos.x s.indoorPos.y s.outdoorPos.x s.outdoorPos.y
  · rw [if_pos c7, if_pos c7]
    obtain ⟨a1, a2⟩ := h.indoorDev c7.1
    have a3 := a2 (by simpa using c4)
    have a4 := h.outdoorDev c7.1
    have a5 := mul_nonneg (hs.speed c7.1) (delay_nonneg t s.indoorPos)
    have a6 := mul_nonneg (hs.speed c7.1) (delay_nonneg t s.outdoorPos)
    have h0 : cs.averageMovSpeed * Post.delay t s.outdoorPos + s.outdoorDev +
        (cs.averageMovSpeed * Post.delay t s.indoorPos + s.indoorDev) ≠ 0 := by linarith
    simp only [div_eq h0, Option.bind_some]
    refine ⟨trivial, safe_max h.indoor.ts h.outdoor.ts, ?_⟩
    dsimp only
    exact le_min (by linarith) (by linarith)
  · rw [if_neg c7, if_neg c7]
    split_ifs
    · exact ⟨rfl, h.indoor⟩
    · exact ⟨rfl, h.outdoor⟩

theorem fuse_eq (cs : CommonSettings) (hs : SettingsOk cs) (s : PostState) (h : PostOk cs s) (t : Int) (ht : Safe t)
    (i o : Position) (hi : PosOk i) (ho : PosOk o) (hd : i.isEmpty = false → 1 ≤ i.deviationM) (hn : Newer cs s.indoorPos i)
    (hm : Newer cs s.outdoorPos o) (st : NavigationStatus) :
    fusePositions cs s t i o st = some (Post.fusePositions cs s t i o st) ∧
      PosOk (Post.fusePositions cs s t i o st).1 ∧ PostOk cs (Post.fusePositions cs s t i o st).2 := by
  have h1 := fillIndoor_ok cs hs s h i hi hd hn
  have hm' : Newer cs (Post.fillIndoor cs s i).outdoorPos o := by
    unfold Post.fillIndoor
    split_ifs <;> exact hm
  have h2 := fillOutdoor_ok cs hs _ h1 o ho hm'
  have h3 := chooseFused_eq cs hs _ h2 t ht i o hi ho st
  unfold fusePositions Post.fusePositions
  simp only [fillIndoor_eq cs s h i hi, fillOutdoor_eq cs _ h1 o ho, h3.1, Option.bind_eq_bind, Option.bind_some]
  exact ⟨trivial, h3.2, h2⟩

theorem smoothing_eq (cs : CommonSettings) (al : ℝ → ℝ → Prop) (s : PostState) (h : PostOk cs s) (p : Position) (hp : PosOk p)
    (ts : Int) (ht : Safe ts) : smoothing cs al s p ts = some (Post.smoothing cs al s p ts) ∧
      ∀ r, Post.smoothing cs al s p ts = some r → PostOk cs r.2 := by
  have hr : SmootherOk cs (if s.lastOut.levelId ≠ p.levelId then s.smoother.reset p else s.smoother) := by
    split_ifs
    · have := h.smoother
      cases hsm : s.smoother with
      | ab P st => rw [hsm] at this; exact ⟨this.1, hp⟩
      | ls P ub st => exact hp.ts
    · exact h.smoother
  have key : ∀ r : Position × PostState, PosOk r.1 → PostOk cs r.2 →
      (if cs.useTimeSmoothing = true then do
          let t ← timeSmooth r.2.time r.1 ts
          some (some (t.1, { r.2 with time := t.2 }))
        else some (some r)) = some (some (if cs.useTimeSmoothing then
          let t := Smooth.timeSmooth r.2.time r.1 ts
          (t.1, { r.2 with time := t.2 })
        else r)) ∧ PostOk cs (if cs.useTimeSmoothing then
          let t := Smooth.timeSmooth r.2.time r.1 ts
          (t.1, { r.2 with time := t.2 })
        else r).2 := by
    intro r h1 h2
    split_ifs
    · rw [timeSmooth_eq _ h2.prev h2.next _ h1.ts ts ht]
      have h3 := timeSmooth_ok _ h2.prev h2.next _ h1.ts ts
      exact ⟨rfl, h2.indoor, h2.outdoor, h2.smoother, h3.1, h3.2, h2.step, h2.extraction, h2.indoorDev, h2.outdoorDev⟩
    · exact ⟨rfl, h2⟩
  unfold smoothing Post.smoothing
  dsimp only
  by_cases hu : cs.useSmoothing = true
  · rw [if_pos hu, if_pos hu, smooth_eq cs al _ hr p hp]
    cases hx : (if s.lastOut.levelId ≠ p.levelId then s.smoother.reset p else s.smoother).smooth al p with
    | none => exact ⟨rfl, fun r h1 => by cases h1⟩
    | some q =>
      obtain ⟨h1, h2⟩ := smooth_ok cs al _ hr p hp q hx
      obtain ⟨k1, k2⟩ := key (q.1, { s with smoother := q.2 }) h1
        ⟨h.indoor, h.outdoor, h2, h.prev, h.next, h.step, h.extraction, h.indoorDev, h.outdoorDev⟩
      simp only [bind2_some, Option.map_some]
      refine ⟨k1, ?_⟩
      intro r hr'
      cases hr'
      exact k2
  · rw [if_neg hu, if_neg hu]
    obtain ⟨k1, k2⟩ := key (p, s) hp h
    simp only [bind2_some, Option.map_some]
    refine ⟨k1, ?_⟩
    intro r hr'
    cases hr'
    exact k2

theorem takeOver_eq (cs : CommonSettings) (hs : SettingsOk cs) (s : PostState) (h : PostOk cs s) (p : Position) (ts : Int)
    (ht : Safe ts) : takeOver cs s p ts = some (Post.takeOver cs s p ts) ∧ PostOk cs (Post.takeOver cs s p ts) := by
  have h' : PostOk cs { s with lastOut := { s.lastOut with ts := ts } } :=
    ⟨h.indoor, h.outdoor, h.smoother, h.prev, h.next, h.step, h.extraction, h.indoorDev, h.outdoorDev⟩
  unfold takeOver Post.takeOver Post.stopDetected
  simp only [getDist_eq, toLong_eq' hs.stopDetection, toLong_eq' hs.stopUpdate, sub_eq ht h.step, sub_eq ht h.extraction,
    Option.bind_eq_bind, Option.bind_some]
  split_ifs
  · exact ⟨rfl, h.indoor, h.outdoor, h.smoother, h.prev, h.next, h.step, ht, h.indoorDev, h.outdoorDev⟩
  · exact ⟨rfl, h'⟩
  · exact ⟨rfl, h.indoor, h.outdoor, h.smoother, h.prev, h.next, h.step, h.extraction, h.indoorDev, h.outdoorDev⟩

theorem snap_eq (cs : CommonSettings) (l : Level) (p : Position) : snapToGraph cs l p = some (Post.snapToGraph cs l p) := by
  unfold snapToGraph Post.snapToGraph Geometry.getDistLP
  split_ifs
  · dsimp only
    rw [projectOnGraph_eq]
    cases NavGraph.projectOnGraph l.graph ⟨p.levelId, p.x, p.y⟩ with
    | none => rfl
    | some q =>
      simp only [bind2_some, getDist_eq, Option.bind_eq_bind, Option.bind_some]
      by_cases hl : p.levelId = q.level
      · simp only [if_pos hl]
      · simp only [if_neg hl]
  · rfl

theorem process_eq (cs : CommonSettings) (hs : SettingsOk cs) (al : ℝ → ℝ → Prop) (s : PostState) (h : PostOk cs s)
    (p : Position) (hp : PosOk p) (ts : Int) (ht : Safe ts) (motion : Int) (hm : Safe motion) (l : Level) :
    getProcessedPosition cs al s p ts motion l = some (Post.getProcessedPosition cs al s p ts motion l) ∧
      ∀ r, Post.getProcessedPosition cs al s p ts motion l = some r → PostOk cs r.2 ∧
        r.2.indoorPos = s.indoorPos ∧ r.2.outdoorPos = s.outdoorPos := by
  have key : ∀ s1 : PostState, PostOk cs s1 → s1.indoorPos = s.indoorPos → s1.outdoorPos = s.outdoorPos →
      s1 = (if motion > 0 then { s with lastStepTs := motion } else s) →
      getProcessedPosition cs al s p ts motion l = some (Post.getProcessedPosition cs al s p ts motion l) ∧
      ∀ r, Post.getProcessedPosition cs al s p ts motion l = some r → PostOk cs r.2 ∧
        r.2.indoorPos = s.indoorPos ∧ r.2.outdoorPos = s.outdoorPos := by
    intro s1 h1 e1 e2 e
    unfold getProcessedPosition Post.getProcessedPosition
    dsimp only
    rw [← e]
    by_cases c1 : p.isEmpty = true
    · rw [if_pos c1, if_pos c1]
      exact ⟨rfl, fun r hr => by cases hr; exact ⟨h1, e1, e2⟩⟩
    rw [if_neg c1, if_neg c1]
    by_cases c2 : ¬ Post.isInsideMap cs p l
    · rw [if_pos c2, if_pos c2]
      exact ⟨rfl, fun r hr => by cases hr; exact ⟨h1, e1, e2⟩⟩
    rw [if_neg c2, if_neg c2]
    simp only [sub_eq ht hp.ts, toLong_eq' hs.deadReckoning, Option.bind_eq_bind, Option.bind_some]
    by_cases c3 : ts - p.ts ≥ Post.toLongLong (1000 * cs.deadReckoningTime)
    · rw [if_pos c3, if_pos c3]
      exact ⟨rfl, fun r hr => by cases hr; exact ⟨h1, e1, e2⟩⟩
    rw [if_neg c3, if_neg c3]
    obtain ⟨k1, k2⟩ := smoothing_eq cs al s1 h1 p hp ts ht
    rw [k1]
    cases hx : Post.smoothing cs al s1 p ts with
    | none => exact ⟨rfl, fun r hr => by cases hr⟩
    | some q =>
      obtain ⟨m1, m2⟩ := takeOver_eq cs hs q.2 (k2 q hx) q.1 ts ht
      simp only [bind2_some, m1, Option.bind_some, snap_eq]
      have eq1 : q.2.indoorPos = s1.indoorPos ∧ q.2.outdoorPos = s1.outdoorPos := by
        unfold Post.smoothing at hx
        dsimp only at hx
        rw [Option.map_eq_some_iff] at hx
        obtain ⟨q0, hq0, hq⟩ := hx
        have e0 : q0.2.indoorPos = s1.indoorPos ∧ q0.2.outdoorPos = s1.outdoorPos := by
          split_ifs at hq0
          · rw [Option.map_eq_some_iff] at hq0
            obtain ⟨q1, -, rfl⟩ := hq0
            exact ⟨rfl, rfl⟩
          · rw [Option.map_eq_some_iff] at hq0
            obtain ⟨q1, -, rfl⟩ := hq0
            exact ⟨rfl, rfl⟩
          · cases hq0; exact ⟨rfl, rfl⟩
        rw [← hq]
        split_ifs
        · exact e0
        · exact e0
      have eq2 : (Post.takeOver cs q.2 q.1 ts).indoorPos = q.2.indoorPos ∧
          (Post.takeOver cs q.2 q.1 ts).outdoorPos = q.2.outdoorPos := by
        unfold Post.takeOver
        dsimp only
        split_ifs <;> exact ⟨rfl, rfl⟩
      cases hsn : Post.snapToGraph cs l (Post.takeOver cs q.2 q.1 ts).lastOut with
      | none => exact ⟨by simp [hsn], fun r hr => by simp [hsn] at hr⟩
      | some p2 =>
        refine ⟨by simp [hsn], fun r hr => ?_⟩
        simp only [Option.bind_some, hsn, Option.map_some, Option.some.injEq] at hr
        subst hr
        refine ⟨⟨m2.indoor, m2.outdoor, m2.smoother, m2.prev, m2.next, m2.step, m2.extraction, m2.indoorDev, m2.outdoorDev⟩,
          ?_, ?_⟩
        · dsimp only; rw [eq2.1, eq1.1, e1]
        · dsimp only; rw [eq2.2, eq1.2, e2]
  refine key _ ?_ ?_ ?_ rfl
  · split_ifs
    · exact ⟨h.indoor, h.outdoor, h.smoother, h.prev, h.next, hm, h.extraction, h.indoorDev, h.outdoorDev⟩
    · exact h
  · split_ifs <;> rfl
  · split_ifs <;> rfl

end Verif.Checked
