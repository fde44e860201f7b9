import Verif.Checked.SensorsLemmas
import Verif.Checked.RadioLemmas
import Verif.Checked.PostLemmas
import Verif.Checked.Client
import Verif.Nav.BatchProps

/-!
# The checked client computes what the client computes
-/

namespace Verif.Checked

open Verif Verif.Levels
open Verif.Nav (Cfg State Sensed Located andThen orThrow orUndefined)
open Verif.Geo (XYPoint GeoPoint)
open Verif.Knn (Result)

/-! ## Sequencing -/

theorem bindR_eq {α β : Type} {x : Option (Result α)} {x' : Result α} {f : α → Option (Result β)} {g : α → Result β}
    (hx : x = some x') (h : ∀ a, x' = .ok a → f a = some (g a)) : bindR x f = some (andThen x' g) := by
  subst hx
  cases x' with
  | ok a => exact h a rfl
  | throws => rfl
  | undefined => rfl

theorem orUndefined_ok {α : Type} {x : Option α} {a : α} (h : orUndefined x = .ok a) : x = some a := by
  cases x with
  | none => cases h
  | some b => cases h; rfl

theorem orThrow_ok {α : Type} {x : Option α} {a : α} (h : orThrow x = .ok a) : x = some a := by
  cases x with
  | none => cases h
  | some b => cases h; rfl

/-! ## Constants -/

/-- What the constants of a client must satisfy. -/
structure CfgOk (c : Cfg) : Prop where
  settings : SettingsOk c.cs
  index : c.pre.levelIndex = c.levels
  buffer : BufferCfgSafe c.pre.buffer
  pathloss : PathlossOk c.levels
  zone : ∀ A B, c.indoor = .zone A B → ∀ l ∈ c.levels.levels, (StdMap.find? B l.id).getD 0 ≠ 0
  pole : ∀ l ∈ c.levels.levels, Real.cos (Geo.degToRad l.bindingPoint.latitude) ≠ 0

/-! ## State -/

/-- An indoor position: a deviation of a metre or more. -/
def Metre (p : Position) : Prop := p.isEmpty = false → 1 ≤ p.deviationM

/-- What the state of a client must satisfy; `t` is a time that the next measurement is not before. -/
structure StateOk (c : Cfg) (t : Int) (s : State) : Prop where
  sensor : Safe s.pre.sensor.ts
  buffer : BufferSafe s.pre.buffer
  fusion : FusionSafe s.fusion
  outdoor : PosOk s.outdoor.last
  indoor : PosOk s.indoorPos
  metre : Metre s.indoorPos
  post : PostOk c.cs s.post
  zone : (∃ A B, c.indoor = .zone A B) → s.indoorPos.isEmpty = true
  same : s.indoorPos.isEmpty = false → s.post.indoorPos = s.indoorPos
  stored : s.post.outdoorPos.isEmpty = false → s.outdoor.last.isEmpty = false
  indoorTime : c.cs.fuseGps = true → s.post.indoorPos.isEmpty = false → s.post.indoorPos.ts ≤ t
  outdoorTime : c.cs.fuseGps = true → s.outdoor.last.isEmpty = false → s.outdoor.last.ts ≤ t
  storedTime : c.cs.fuseGps = true → s.post.outdoorPos.isEmpty = false → s.post.outdoorPos.ts ≤ s.outdoor.last.ts

theorem init_ok (c : Cfg) (hc : CfgOk c) (t : Int) (g : Nav.Garbage) (h2 : Safe g.sensor.ts)
    (h3 : Safe g.magn.2) (h4 : Safe g.accel.2) : StateOk c t (Nav.init c g) := by
  have hp := post_init c.cs hc.settings
  refine ⟨h2, ⟨safe_zero, safe_zero, safe_zero⟩, ⟨?_, pedo_init⟩, pos_default, pos_default, fun h => (by cases h), hp, fun _ => rfl,
    fun h => (by cases h), fun h => (by cases h), fun _ h => (by cases h), fun _ h => (by cases h), fun _ h => (by cases h)⟩
  exact ⟨safe_neg_one, safe_neg_one, safe_neg_one, h3, h4⟩

/-! ## Sensing -/

theorem detectLevel_eq (c : Cfg) (radio : List RadioData) : detectLevel c radio = some (Nav.detectLevel c radio) := by
  unfold detectLevel Nav.detectLevel
  cases c.detector with
  | radiomap best maps => exact detectRm_eq best maps c.levels radio
  | transmitters tx => exact detectTx_eq tx c.levels radio

/-- What is known after sensing. -/
structure SensedOk (c : Cfg) (s : State) (m : Measurement) (x : Sensed) : Prop where
  now : x.pre.currentTs = m.ts
  signal : Safe s.pre.lastSignalTs → Safe x.pre.lastSignalTs
  quiet : (∀ d, m.data ≠ .radio d) → x.pre.lastSignalTs = s.pre.lastSignalTs
  sensor : Safe x.pre.sensor.ts
  buffer : BufferSafe x.pre.buffer
  fusion : FusionSafe x.fusion
  motion : Safe x.info.lastMotionTs
  outdoor : PosOk x.outdoor.last
  shape : x.outdoorPos = Position.default ∨ x.outdoorPos = x.outdoor.last
  last : x.outdoor.last = s.outdoor.last ∨ (x.outdoor.last.ts = m.ts ∧ x.outdoor.last.isEmpty = false)

theorem update_ok {c : Cfg} {t : Int} {s : State} (h : StateOk c t s) (m : Measurement) (hm : Safe m.ts) :
    (Radio.updateMeasurements c.pre s.pre m).currentTs = m.ts ∧
      (Safe s.pre.lastSignalTs → Safe (Radio.updateMeasurements c.pre s.pre m).lastSignalTs) ∧
      ((∀ d, m.data ≠ .radio d) → (Radio.updateMeasurements c.pre s.pre m).lastSignalTs = s.pre.lastSignalTs) ∧
      Safe (Radio.updateMeasurements c.pre s.pre m).sensor.ts ∧
      BufferSafe (Radio.updateMeasurements c.pre s.pre m).buffer := by
  have hb := h.buffer
  unfold Radio.updateMeasurements
  dsimp only
  split
  · split
    · rename_i d hd _ _ _
      refine ⟨rfl, fun _ => hm, fun hq => absurd hd (hq d), h.sensor, ?_⟩
      unfold Radio.addMeasurement
      dsimp only
      split_ifs
      · exact ⟨hm, hm, hb.step⟩
      · exact ⟨hb.extraction, hm, hb.step⟩
    · exact ⟨rfl, id, fun _ => rfl, h.sensor, hb⟩
  · exact ⟨rfl, id, fun _ => rfl, hm, hb⟩
  · exact ⟨rfl, id, fun _ => rfl, h.sensor, hb⟩

theorem sense_eq {c : Cfg} (hc : CfgOk c) {t : Int} {s : State} (h : StateOk c t s) (m : Measurement) (hm : Safe m.ts) :
    sense c s m = some (Nav.sense c s m) ∧ ∀ x, Nav.sense c s m = .ok x → SensedOk c s m x := by
  obtain ⟨u1, u2, u5, u3, u4⟩ := update_ok h m hm
  unfold sense Nav.sense
  dsimp only
  generalize Radio.updateMeasurements c.pre s.pre m = pre at u1 u2 u5 u3 u4
  have hd := displacement_eq c.fusion s.fusion pre.sensor pre.currentTs h.fusion u3
  have hts : Safe pre.currentTs := by rw [u1]; exact hm
  have hmot : ∀ f, Fusion.calculateDisplacement c.fusion s.fusion pre.sensor pre.currentTs = some f →
      FusionSafe f.1 ∧ Safe f.2.lastMotionTs := by
    intro f hf
    obtain ⟨a, b⟩ := displacement_safe c.fusion s.fusion f.1 f.2 pre.sensor pre.currentTs h.fusion u3 hf
    refine ⟨a, ?_⟩
    rcases b with b | b <;> rw [b]
    · exact hts
    · exact safe_zero
  have hpl : PathlossOk c.pre.levelIndex := by rw [hc.index]; exact hc.pathloss
  constructor
  · refine bindR_eq (by rw [hd]; rfl) ?_
    intro f hf
    obtain ⟨-, f2⟩ := hmot f (orUndefined_ok hf)
    rw [radio_eq c.env.radioSorts c.pre hpl hc.buffer pre u4 f.2.lastMotionTs f2, Option.bind_eq_bind, Option.bind_some]
    refine bindR_eq rfl ?_
    intro radio _
    refine bindR_eq (by rw [detectLevel_eq]; rfl) ?_
    intro d _
    rw [calculateLevel_eq, Option.bind_eq_bind, Option.bind_some]
    refine bindR_eq (by rw [outdoor_eq c.cs c.levels s.outdoor h.outdoor.ts pre.currentTs hts]; rfl) ?_
    intro o _
    rfl
  · intro x hx
    obtain ⟨f, hf, hx⟩ := Nav.andThen_ok hx
    obtain ⟨radio, hr, hx⟩ := Nav.andThen_ok hx
    obtain ⟨d, hd', hx⟩ := Nav.andThen_ok hx
    obtain ⟨o, ho, hx⟩ := Nav.andThen_ok hx
    cases hx
    obtain ⟨f1, f2⟩ := hmot f (orUndefined_ok hf)
    obtain ⟨o1, o2⟩ := outdoor_shape c.cs hc.settings.gps c.levels s.outdoor pre.currentTs pre.sensor pre.nmea s.flagIndoorPos o
      (orUndefined_ok ho)
    refine ⟨u1, u2, u5, u3, (extract_eq c.env.radioSorts c.pre.buffer hc.buffer pre.buffer u4 f.2.lastMotionTs f2).2, f1, f2,
      ?_, o1, ?_⟩
    · rcases o2 with o2 | ⟨a, b, -⟩
      · dsimp only; rw [o2]; exact h.outdoor
      · exact ⟨by dsimp only; rw [a]; exact hts, b⟩
    · rcases o2 with o2 | ⟨a, -, b⟩
      · exact Or.inl o2
      · exact Or.inr ⟨by dsimp only; rw [a, u1], b⟩

/-! ## Locating -/

theorem timedOut_eq {c : Cfg} {s : State} {m : Measurement} (hm : Safe m.ts) {x : Sensed} (hx : SensedOk c s m x)
    (hsig : Safe s.pre.lastSignalTs) : timedOutLevel c x = some (Nav.timedOutLevel c x) := by
  have hts : Safe x.pre.currentTs := by rw [hx.now]; exact hm
  unfold timedOutLevel Nav.timedOutLevel
  rw [sub_eq hts (hx.signal hsig), sub_eq hts hx.motion]
  rfl

/-- The indoor position given: none, the stored one, or one of now. -/
theorem knn_shape (k : Knn.Cfg) (old : Position) (l : Level) (ts : Int) (radio : List RadioData)
    (r : NavigationStatus × Position) (hr : Knn.calculatePosition k old l ts radio = .ok r) :
    r.2 = old ∨ (r.2.ts = ts ∧ r.2.deviationM = 1 ∧ r.2.isEmpty = false) := by
  unfold Knn.calculatePosition at hr
  split at hr
  · cases hr; exact Or.inl rfl
  · split at hr
    · cases hr
    · dsimp only at hr
      split at hr
      · cases hr; exact Or.inl rfl
      · split at hr
        · cases hr
        · split at hr
          · split at hr
            · cases hr; exact Or.inl rfl
            · split at hr
              · cases hr; exact Or.inl rfl
              · split at hr <;> cases hr
                exact Or.inr ⟨rfl, rfl, rfl⟩
          · split at hr <;> cases hr
            exact Or.inr ⟨rfl, rfl, rfl⟩

theorem indoor_eq {c : Cfg} (hc : CfgOk c) (old : Position) (l : Level) (hl : l ∈ c.levels.levels) (ts : Int)
    (radio : List RadioData) : indoorPosition c old l ts radio = some (Nav.indoorPosition c old l ts radio) := by
  unfold indoorPosition Nav.indoorPosition
  cases hi : c.indoor with
  | knn k =>
    dsimp only
    refine bindR_eq (knnPosition_eq k old l ts radio) ?_
    intro a _
    rfl
  | zone A B =>
    dsimp only
    rw [zone_eq A B l (hc.zone A B hi l hl)]
    rfl

/-- The zone estimator never stores a position. -/
def Zone (c : Cfg) : Prop := ∃ A B, c.indoor = .zone A B

theorem indoor_shape {c : Cfg} (old : Position) (l : Level) (ts : Int)
    (radio : List RadioData) (r : NavigationStatus × Position × Position)
    (hr : Nav.indoorPosition c old l ts radio = .ok r) :
    ((r.2.1 = Position.default ∨ r.2.1.ts = ts ∧ 1 ≤ r.2.1.deviationM) ∧ r.2.2 = old ∧ Zone c) ∨
      (r.2.1 = r.2.2 ∧ (r.2.2 = old ∨ r.2.2.ts = ts ∧ 1 ≤ r.2.2.deviationM) ∧ ¬ Zone c) := by
  unfold Nav.indoorPosition at hr
  cases hi : c.indoor with
  | knn k =>
    rw [hi] at hr
    obtain ⟨q, hq, hr⟩ := Nav.andThen_ok hr
    cases hr
    have hz : ¬ Zone c := by
      rintro ⟨A, B, h⟩
      rw [hi] at h
      cases h
    rcases knn_shape k old l ts radio q hq with h | ⟨h1, h2, h3⟩
    · exact Or.inr ⟨rfl, Or.inl h, hz⟩
    · exact Or.inr ⟨rfl, Or.inr ⟨h1, h2.ge⟩, hz⟩
  | zone A B =>
    rw [hi] at hr
    cases hr
    exact Or.inl ⟨zone_shape A B l ts radio, rfl, A, B, hi⟩

theorem fuse_stored (cs : CommonSettings) (s : Post.PostState) (t : Int) (i o : Position) (st : NavigationStatus) :
    (Post.fusePositions cs s t i o st).2.indoorPos = (if i.isEmpty = true then s.indoorPos else i) ∧
      (Post.fusePositions cs s t i o st).2.outdoorPos = (if o.isEmpty = true then s.outdoorPos else o) := by
  unfold Post.fusePositions Post.fillIndoor Post.fillOutdoor
  dsimp only
  split_ifs <;> exact ⟨rfl, rfl⟩

/-- Time does not run backwards, if the positions are fused. -/
def Later (c : Cfg) (t : Int) (m : Measurement) : Prop := c.cs.fuseGps = true → t ≤ m.ts

theorem locateIndoor_eq {c : Cfg} (hc : CfgOk c) {t : Int} {s : State} (h : StateOk c t s) {m : Measurement} (hm : Safe m.ts)
    (hlate : Later c t m) {x : Sensed} (hx : SensedOk c s m x) (l : Level) (hl : l ∈ c.levels.levels) :
    locateIndoor c s x l = some (Nav.locateIndoor c s x l) ∧ ∀ r, Nav.locateIndoor c s x l = .ok r → StateOk c m.ts r.state := by
  have hts : Safe x.pre.currentTs := by rw [hx.now]; exact hm
  have ho : PosOk x.outdoorPos := by
    rcases hx.shape with h1 | h1 <;> rw [h1]
    · exact pos_default
    · exact hx.outdoor
  have holast : c.cs.fuseGps = true → x.outdoor.last.isEmpty = false → x.outdoor.last.ts ≤ m.ts := by
    intro hf he
    rcases hx.last with h1 | ⟨h1, -⟩
    · rw [h1] at he ⊢; exact (h.outdoorTime hf he).trans (hlate hf)
    · exact h1.le
  have hmono : c.cs.fuseGps = true → s.outdoor.last.isEmpty = false → s.outdoor.last.ts ≤ x.outdoor.last.ts := by
    intro hf he
    rcases hx.last with h1 | ⟨h1, -⟩
    · rw [h1]
    · rw [h1]; exact (h.outdoorTime hf he).trans (hlate hf)
  have hkeep : s.outdoor.last.isEmpty = false → x.outdoor.last.isEmpty = false := by
    intro he
    rcases hx.last with h1 | ⟨-, h1⟩
    · rw [h1]; exact he
    · exact h1
  have hnewO : Newer c.cs s.post.outdoorPos x.outdoorPos := by
    intro hf h1 h2
    rcases hx.shape with h3 | h3
    · rw [h3] at h1; cases h1
    · rw [h3]
      exact (h.storedTime hf h2).trans (hmono hf (h.stored h2))
  -- the indoor position given
  have hin : ∀ i, Nav.indoorPosition c s.indoorPos l x.pre.currentTs x.radio = .ok i →
      PosOk i.2.1 ∧ Metre i.2.1 ∧ Newer c.cs s.post.indoorPos i.2.1 ∧ PosOk i.2.2 ∧ Metre i.2.2 ∧
      (c.cs.fuseGps = true → i.2.1.isEmpty = false → i.2.1.ts ≤ m.ts) ∧
      (i.2.2.isEmpty = false → (if i.2.1.isEmpty = true then s.post.indoorPos else i.2.1) = i.2.2) := by
    intro i hi
    have now : ∀ p : Position, p.ts = x.pre.currentTs → 1 ≤ p.deviationM → PosOk p ∧ Metre p ∧
        Newer c.cs s.post.indoorPos p ∧ (c.cs.fuseGps = true → p.isEmpty = false → p.ts ≤ m.ts) := by
      intro p h1 h2
      refine ⟨⟨by rw [h1]; exact hts, by linarith⟩, fun _ => h2, ?_, ?_⟩
      · intro hf _ h4
        rw [h1, hx.now]
        exact (h.indoorTime hf h4).trans (hlate hf)
      · intro _ _
        rw [h1, hx.now]
    have old : PosOk s.indoorPos ∧ Metre s.indoorPos ∧ Newer c.cs s.post.indoorPos s.indoorPos ∧
        (c.cs.fuseGps = true → s.indoorPos.isEmpty = false → s.indoorPos.ts ≤ m.ts) := by
      refine ⟨h.indoor, h.metre, ?_, ?_⟩
      · intro _ h1 _
        rw [h.same h1]
      · intro hf h1
        have := h.same h1
        rw [← this] at h1 ⊢
        exact (h.indoorTime hf h1).trans (hlate hf)
    rcases indoor_shape s.indoorPos l x.pre.currentTs x.radio i hi with ⟨h1, h2, h3⟩ | ⟨h1, h2, h3⟩
    · have he := h.zone h3
      have hp : PosOk i.2.1 ∧ Metre i.2.1 ∧ Newer c.cs s.post.indoorPos i.2.1 ∧
          (c.cs.fuseGps = true → i.2.1.isEmpty = false → i.2.1.ts ≤ m.ts) := by
        rcases h1 with h1 | ⟨h1, h4⟩
        · rw [h1]
          exact ⟨pos_default, fun h => (by cases h), fun _ h => (by cases h), fun _ h => (by cases h)⟩
        · exact now _ h1 h4
      rw [h2]
      exact ⟨hp.1, hp.2.1, hp.2.2.1, old.1, old.2.1, hp.2.2.2, fun h4 => by rw [he] at h4; cases h4⟩
    · have hp : PosOk i.2.2 ∧ Metre i.2.2 ∧ Newer c.cs s.post.indoorPos i.2.2 ∧
          (c.cs.fuseGps = true → i.2.2.isEmpty = false → i.2.2.ts ≤ m.ts) := by
        rcases h2 with h2 | ⟨h2, h4⟩
        · rw [h2]; exact old
        · exact now _ h2 h4
      rw [h1]
      exact ⟨hp.1, hp.2.1, hp.2.2.1, hp.1, hp.2.1, hp.2.2.2, fun h4 => by rw [if_neg (by rw [h4]; simp)]⟩
  unfold locateIndoor Nav.locateIndoor
  constructor
  · refine bindR_eq (indoor_eq hc s.indoorPos l hl x.pre.currentTs x.radio) ?_
    intro i hi
    obtain ⟨i1, i2, i3, -⟩ := hin i hi
    obtain ⟨f1, f2, f3⟩ := fuse_eq c.cs hc.settings s.post h.post x.pre.currentTs hts i.2.1 x.outdoorPos i1 ho i2 i3 hnewO i.1
    rw [f1, Option.bind_eq_bind, Option.bind_some]
    refine bindR_eq rfl ?_
    intro hd _
    refine bindR_eq (by rw [(process_eq c.cs hc.settings (c.env.allowed l) _ f3 _ f2 x.pre.currentTs hts
      x.info.lastMotionTs hx.motion l).1]; rfl) ?_
    intro p _
    rfl
  · intro r hr
    obtain ⟨i, hi, hr⟩ := Nav.andThen_ok hr
    obtain ⟨i1, i2, i3, i4, i5, i6, i7⟩ := hin i hi
    obtain ⟨f1, f2, f3⟩ := fuse_eq c.cs hc.settings s.post h.post x.pre.currentTs hts i.2.1 x.outdoorPos i1 ho i2 i3 hnewO i.1
    obtain ⟨hd, -, hr⟩ := Nav.andThen_ok hr
    obtain ⟨p, hp, hr⟩ := Nav.andThen_ok hr
    cases hr
    obtain ⟨p1, p2, p3⟩ := (process_eq c.cs hc.settings (c.env.allowed l) _ f3 _ f2 x.pre.currentTs hts
      x.info.lastMotionTs hx.motion l).2 p (orUndefined_ok hp)
    obtain ⟨g1, g2⟩ := fuse_stored c.cs s.post x.pre.currentTs i.2.1 x.outdoorPos i.1
    rw [g1] at p2
    rw [g2] at p3
    refine ⟨hx.sensor, hx.buffer, hx.fusion, hx.outdoor, i4, i5, p1, ?_, ?_, ?_, ?_, ?_, ?_⟩
    · intro hz
      rcases indoor_shape s.indoorPos l x.pre.currentTs x.radio i hi with ⟨-, h2, -⟩ | ⟨-, -, h3⟩
      · dsimp only; rw [h2]; exact h.zone hz
      · exact absurd hz h3
    · intro h1
      dsimp only at h1 ⊢
      rw [p2]; exact i7 h1
    · intro h1
      dsimp only at h1 ⊢
      rw [p3] at h1
      split_ifs at h1 with h2
      · exact hkeep (h.stored h1)
      · rcases hx.shape with h3 | h3
        · rw [h3] at h1; cases h1
        · rw [← h3]; exact h1
    · intro hf h1
      dsimp only at h1 ⊢
      rw [p2] at h1 ⊢
      split_ifs at h1 ⊢ with h2
      · exact (h.indoorTime hf h1).trans (hlate hf)
      · exact i6 hf h1
    · intro hf h1
      dsimp only at h1 ⊢
      exact holast hf h1
    · intro hf h1
      dsimp only at h1 ⊢
      rw [p3] at h1 ⊢
      split_ifs at h1 ⊢ with h2
      · exact (h.storedTime hf h1).trans (hmono hf (h.stored h1))
      · rcases hx.shape with h3 | h3
        · rw [h3] at h1; cases h1
        · rw [h3]

theorem locate_eq {c : Cfg} (hc : CfgOk c) {t : Int} {s : State} (h : StateOk c t s) {m : Measurement} (hm : Safe m.ts)
    (hlate : Later c t m) {x : Sensed} (hx : SensedOk c s m x) (hsig : Safe s.pre.lastSignalTs) :
    locate c s x = some (Nav.locate c s x) ∧ ∀ r, Nav.locate c s x = .ok r → StateOk c m.ts r.state := by
  have holast : c.cs.fuseGps = true → x.outdoor.last.isEmpty = false → x.outdoor.last.ts ≤ m.ts := by
    intro hf he
    rcases hx.last with h1 | ⟨h1, -⟩
    · rw [h1] at he ⊢; exact (h.outdoorTime hf he).trans (hlate hf)
    · exact h1.le
  have base : ∀ pos f, StateOk c m.ts { s with
      pre := x.pre, fusion := x.fusion, level := x.level, outdoor := x.outdoor, flagIndoorPos := f, position := pos } := by
    intro pos f
    refine ⟨hx.sensor, hx.buffer, hx.fusion, hx.outdoor, h.indoor, h.metre, h.post, h.zone, h.same, ?_, ?_, ?_, ?_⟩
    · intro h1
      rcases hx.last with h2 | ⟨-, h2⟩
      · dsimp only; rw [h2]; exact h.stored h1
      · exact h2
    · intro hf h1
      dsimp only
      exact (h.indoorTime hf h1).trans (hlate hf)
    · intro hf h1
      dsimp only
      exact holast hf h1
    · intro hf h1
      have h3 := h.storedTime hf h1
      rcases hx.last with h2 | ⟨h2, -⟩
      · dsimp only; rw [h2]; exact h3
      · dsimp only; rw [h2]
        exact h3.trans ((h.outdoorTime hf (h.stored h1)).trans (hlate hf))
  unfold locate Nav.locate
  rw [timedOut_eq hm hx hsig, Option.bind_eq_bind, Option.bind_some]
  dsimp only
  by_cases h1 : hasLevel c.levels (Nav.timedOutLevel c x) = true
  · rw [if_pos h1, if_pos h1]
    constructor
    · refine bindR_eq rfl ?_
      intro l hl
      exact (locateIndoor_eq hc h hm hlate hx l (level_mem (orThrow_ok hl))).1
    · intro r hr
      obtain ⟨l, hl, hr⟩ := Nav.andThen_ok hr
      exact (locateIndoor_eq hc h hm hlate hx l (level_mem (orThrow_ok hl))).2 r hr
  · rw [if_neg h1, if_neg h1]
    by_cases h2 : x.outdoorPos.isEmpty = false
    · rw [if_pos h2, if_pos h2]
      exact ⟨rfl, fun r hr => by cases hr; exact base _ _⟩
    · rw [if_neg h2, if_neg h2]
      exact ⟨rfl, fun r hr => by cases hr; exact base _ _⟩

/-! ## Output -/

theorem localToGps_eq (q : XYPoint) (b : GeoPoint) (h : Real.cos (Geo.degToRad b.latitude) ≠ 0) :
    localToGps q b = some (Geo.localToGps q b) := by
  have h0 : Geo.latitudeCircumference b ≠ 0 := by
    unfold Geo.latitudeCircumference
    refine mul_ne_zero ?_ h
    unfold Geo.equatorCircumference
    positivity
  unfold localToGps
  rw [div_eq h0]
  rfl

theorem report_eq {c : Cfg} (hc : CfgOk c) (x : Sensed) (l : Located) : report c x l = some (Nav.report c x l) := by
  unfold report Nav.report
  dsimp only
  by_cases h1 : l.state.position.isEmpty = true
  · rw [if_pos h1, if_pos h1]
  rw [if_neg h1, if_neg h1]
  by_cases h2 : l.state.position.levelId ≠ ""
  · rw [if_pos h2, if_pos h2]
    refine bindR_eq rfl ?_
    intro lv hlv
    rw [localToGps_eq _ _ (hc.pole lv (level_mem (orThrow_ok hlv))), Option.bind_eq_bind, Option.bind_some]
    refine bindR_eq rfl ?_
    intro a _
    rfl
  · rw [if_neg h2, if_neg h2]

/-! ## Measurements -/

theorem step_eq {c : Cfg} (hc : CfgOk c) {t : Int} {s : State} (h : StateOk c t s) {m : Measurement} (hm : Safe m.ts)
    (hlate : Later c t m) (hsig : Safe s.pre.lastSignalTs) :
    step c s m = some (Nav.step c s m) ∧
      ∀ r, Nav.step c s m = .ok r → StateOk c m.ts r.1 ∧ Safe r.1.pre.lastSignalTs := by
  obtain ⟨s1, s2⟩ := sense_eq hc h m hm
  unfold step Nav.step
  constructor
  · refine bindR_eq s1 ?_
    intro x hx
    refine bindR_eq (locate_eq hc h hm hlate (s2 x hx) hsig).1 ?_
    intro l _
    refine bindR_eq (report_eq hc x l) ?_
    intro o _
    rfl
  · intro r hr
    obtain ⟨x, hx, hr⟩ := Nav.andThen_ok hr
    obtain ⟨l, hl, hr⟩ := Nav.andThen_ok hr
    obtain ⟨o, -, hr⟩ := Nav.andThen_ok hr
    cases hr
    refine ⟨(locate_eq hc h hm hlate (s2 x hx) hsig).2 l hl, ?_⟩
    have hp : l.state.pre = x.pre := by
      unfold Nav.locate at hl
      dsimp only at hl
      split_ifs at hl
      · obtain ⟨lv, -, hl⟩ := Nav.andThen_ok hl
        obtain ⟨i, -, hl⟩ := Nav.andThen_ok hl
        obtain ⟨hd, -, hl⟩ := Nav.andThen_ok hl
        obtain ⟨p, -, hl⟩ := Nav.andThen_ok hl
        cases hl; rfl
      · cases hl; rfl
      · cases hl; rfl
    dsimp only
    rw [hp]
    exact (s2 x hx).signal hsig

theorem loop_eq {c : Cfg} (hc : CfgOk c) (ms : List Measurement) :
    ∀ {s : State} {prev : Int} (_ : StateOk c prev s) (_ : Safe s.pre.lastSignalTs) (_ : ∀ m ∈ ms, Safe m.ts),
      loop c s prev ms = some (Nav.loop c s prev ms) ∧
        ∀ r, Nav.loop c s prev ms = .ok r → Safe r.1.pre.lastSignalTs ∧
          StateOk c (((Nav.accepted prev ms).getLast?.map (fun m : Measurement => m.ts)).getD prev) r.1 := by
  induction ms with
  | nil =>
    intro s prev h hsig _
    exact ⟨rfl, fun r hr => by cases hr; exact ⟨hsig, h⟩⟩
  | cons m ms ih =>
    intro s prev h hsig hms
    have hms' : ∀ m ∈ ms, Safe m.ts := fun m hm => hms m (List.mem_cons_of_mem _ hm)
    unfold loop Nav.loop Nav.accepted
    by_cases h1 : prev > m.ts
    · rw [if_pos h1, if_pos h1, if_pos h1]
      exact ih h hsig hms'
    · rw [if_neg h1, if_neg h1, if_neg h1]
      obtain ⟨a, b⟩ := step_eq hc h (hms m List.mem_cons_self) (fun _ => not_lt.mp h1) hsig
      constructor
      · refine bindR_eq a ?_
        intro r hr
        obtain ⟨r1, r2⟩ := b r hr
        refine bindR_eq (ih r1 r2 hms').1 ?_
        intro r' _
        rfl
      · intro r hr
        obtain ⟨q, hq, hr⟩ := Nav.andThen_ok hr
        obtain ⟨q', hq', hr⟩ := Nav.andThen_ok hr
        cases hr
        obtain ⟨r1, r2⟩ := b q hq
        obtain ⟨k1, k2⟩ := (ih r1 r2 hms').2 q' hq'
        refine ⟨k1, ?_⟩
        dsimp only
        cases hl : (Nav.accepted m.ts ms).getLast? with
        | none =>
          rw [hl] at k2
          rw [List.getLast?_eq_none_iff.mp hl]
          exact k2
        | some w =>
          rw [hl] at k2
          rw [List.getLast?_cons, hl]
          exact k2

theorem StateOk.later {c : Cfg} {t u : Int} {s : State} (h : StateOk c t s) (htu : c.cs.fuseGps = true → t ≤ u) :
    StateOk c u s :=
  { h with
    indoorTime := fun hf h1 => (h.indoorTime hf h1).trans (htu hf)
    outdoorTime := fun hf h1 => (h.outdoorTime hf h1).trans (htu hf) }

theorem navigate_eq {c : Cfg} (hc : CfgOk c) {t : Int} {s : State} (h : StateOk c t s) (hsig : Safe s.pre.lastSignalTs)
    (batch : List Measurement) (hb : ∀ m ∈ batch, Safe m.ts)
    (hlate : c.cs.fuseGps = true → ∀ m ∈ Nav.records batch, t ≤ m.ts) :
    navigate c s batch = some (Nav.navigate c s batch) ∧
      ∀ r, Nav.navigate c s batch = .ok r → Safe r.1.pre.lastSignalTs ∧
        StateOk c (((Nav.records batch).getLast?.map (fun m : Measurement => m.ts)).getD t) r.1 := by
  cases batch with
  | nil => exact ⟨rfl, fun r hr => by cases hr; exact ⟨hsig, h⟩⟩
  | cons m ms =>
    have hmem : m ∈ Nav.records (m :: ms) := by
      rw [Nav.records_eq]
      unfold Nav.accepted
      rw [if_neg (by simp)]
      exact List.mem_cons_self
    obtain ⟨a, b⟩ := loop_eq hc (m :: ms) (h.later (u := m.ts) (fun hf => hlate hf m hmem)) hsig hb
    refine ⟨a, fun r hr => ⟨(b r hr).1, ?_⟩⟩
    have := (b r hr).2
    rw [← Nav.records_eq] at this
    cases hl : (Nav.records (m :: ms)).getLast? with
    | none => rw [List.getLast?_eq_none_iff.mp hl] at hmem; cases hmem
    | some w => rw [hl] at this; exact this

end Verif.Checked
