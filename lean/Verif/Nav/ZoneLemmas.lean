import Verif.Nav.ZoneSpec
import Verif.Nav.Trace
import Verif.Radio.Props
import Verif.Estim.Props
import Verif.LevelEst.TransmittersProps

/-!
# The state of a client with zones on one floor
-/

namespace Verif.Nav

open Verif.Levels
open Verif.Knn (Result)

theorem windows_snoc (ls : List Level) (cs : CommonSettings) (ms : List Measurement) (m : Measurement) :
    windows ls cs (ms ++ [m]) = (windows ls cs ms).take ls cs m := by
  unfold windows
  rw [List.foldl_append]
  rfl

theorem take_heard {ls : List Level} {cs : CommonSettings} (w : Windows) {d : RadioData} {t : Int}
    (h : Radio.Admissible ls cs d) : w.take ls cs ⟨.radio d, t⟩ = w.hear (spanOf cs) ⟨d, t⟩ := by
  unfold Windows.take
  exact if_pos h

theorem take_not_heard {ls : List Level} {cs : CommonSettings} (w : Windows) {m : Measurement} (h : ¬ Heard ls cs m) :
    w.take ls cs m = w := by
  unfold Windows.take
  split
  · rename_i d hd
    exact if_neg (fun ha => h ⟨d, hd, ha⟩)
  · rfl

theorem framed_span {cs : CommonSettings} (h : Framed cs) : 0 < spanOf cs := by
  unfold spanOf
  have := h.span
  rw [Int.floor_pos]
  linarith

theorem span_pos {cs : CommonSettings} (h : Windowed cs) : 0 < spanOf cs := framed_span h.framed

theorem framed_buffer {cs : CommonSettings} (h : Framed cs) :
    let b := Radio.createRadioMeasurementBuffer cs
    b.shiftMs = spanOf cs ∧ b.keepMs = 0 ∧ b.bias = 0 ∧ b.useStops = false := by
  intro b
  have h0 : (0 : ℝ) ≤ 1000 * cs.sigAveragingTime := by have := h.span; linarith
  have e1 : Radio.truncToInt (1000 * cs.sigAveragingTime) = spanOf cs := by
    unfold Radio.truncToInt spanOf
    rw [if_pos h0]
  have e2 : Radio.truncToInt (1000 * cs.sigWindowShift) = 0 := by
    rw [h.shift]; simp [Radio.truncToInt]
  obtain ⟨-, h2, -, -, h5, h6, -⟩ := Radio.C23_window cs
  obtain ⟨h3, h4⟩ := h2 (Or.inl e2)
  exact ⟨h3.trans e1, h4, h5, h6.trans h.stops⟩

/-- The buffer holds the signals of the open window. -/
structure Buffered (cs : CommonSettings) (w : Windows) (b : Radio.BufferState) : Prop where
  pending : b.measurements = w.pending
  none : w.opened = none → b.currentTs = 0 ∧ b.lastExtractionTs = 0
  some : ∀ t, w.opened = some t → b.lastExtractionTs = t ∧ b.currentTs ≠ 0
  gate : b.currentTs - b.lastExtractionTs < spanOf cs

theorem forall₂_map_eq {α β γ : Type} {R : α → β → Prop} {f : α → γ} {g : β → γ} (h : ∀ a b, R a b → f a = g b)
    {l : List α} {l' : List β} (hl : List.Forall₂ R l l') : l.map f = l'.map g := by
  induction hl with
  | nil => rfl
  | cons h1 _ ih => rw [List.map_cons, List.map_cons, h _ _ h1, ih]

theorem forall₂_exists {α β : Type} {R : α → β → Prop} {l : List α} {l' : List β} (hl : List.Forall₂ R l l') {b : β}
    (hb : b ∈ l') : ∃ a ∈ l, R a b := by
  induction hl with
  | nil => cases hb
  | cons h1 _ ih =>
    rcases List.mem_cons.mp hb with rfl | hb
    · exact ⟨_, by simp, h1⟩
    · obtain ⟨a, ha, h⟩ := ih hb
      exact ⟨a, by simp [ha], h⟩

/-- The preprocessor with one measurement. -/
theorem framed_radio {ls : List Level} {c : Cfg} (hc : Client ls c) (hp : Framed c.cs) {w : Windows} {st : Radio.State}
    (hb : Buffered c.cs w st.buffer) {m : Measurement} (hts : 0 < m.ts) {t : Int} {radio : List RadioData}
    (hr : (Radio.extractRadioMeasurements c.env.radioSorts c.pre (Radio.updateMeasurements c.pre st m) t).1 = some radio) :
    let w' := w.take ls c.cs m
    let st' := (Radio.extractRadioMeasurements c.env.radioSorts c.pre (Radio.updateMeasurements c.pre st m) t).2
    Buffered c.cs w' st'.buffer ∧
    ((radio = [] ∧ ¬ (Heard ls c.cs m ∧ spanOf c.cs ≤ m.ts - w.opened.getD m.ts) ∧ w'.closed = w.closed ∧ (Heard ls c.cs m → w'.pending = w.pending ++ [⟨(match m.data with
        | .radio d => d
        | _ => ⟨.WIFI, "", 0, 0, 0, 0⟩), m.ts⟩]) ∧ (¬ Heard ls c.cs m → w'.pending = w.pending)) ∨
     (spanOf c.cs ≤ m.ts - w.opened.getD m.ts ∧ ∃ d win, m.data = .radio d ∧ Radio.Admissible ls c.cs d ∧ win = w.pending ++ [⟨d, m.ts⟩] ∧ w'.closed = some (m.ts, win) ∧
      w'.pending = [] ∧ HandedOut win radio ∧ RttDistances c.cs.wiFiRttOffset win radio)) := by
  intro w' st'
  obtain ⟨b1, b2, b3, b4⟩ := framed_buffer hp
  have hpre : c.pre = Radio.mkCfg (collect ls) c.cs := hc.parts.pre
  have hbuf : c.pre.buffer = Radio.createRadioMeasurementBuffer c.cs := by rw [hpre]; rfl
  have hcl : c.pre.useClosestAps = false := by rw [hpre]; exact hp.closest
  rw [← hbuf] at b1 b2 b3 b4
  have hsp := framed_span hp
  have hnil : Radio.closestAps c.env.radioSorts c.pre [] = [] := by
    unfold Radio.closestAps; rw [hcl]; rfl
  by_cases hh : Heard ls c.cs m
  · obtain ⟨d, hd, ha⟩ := hh
    obtain ⟨data, ts⟩ := m
    dsimp only at hd hts ⊢
    subst hd
    have hw' : w' = w.hear (spanOf c.cs) ⟨d, ts⟩ := take_heard w ha
    have hu : (Radio.updateMeasurements c.pre st ⟨.radio d, ts⟩).buffer = Radio.addMeasurement c.pre.buffer st.buffer ⟨d, ts⟩ := by
      have hv : Radio.getValidSignalEntry c.pre d = some d := by
        have h1 := ((Radio.C16_admission ls hc.map.nodup c.cs st d ts).1 ha).1
        rw [← hpre] at h1
        unfold Radio.updateMeasurements at h1
        dsimp only at h1
        cases hg : Radio.getValidSignalEntry c.pre d with
        | none => rw [hg] at h1; simp at h1
        | some v =>
          unfold Radio.getValidSignalEntry at hg
          dsimp only at hg
          split_ifs at hg <;> (rw [Option.some.injEq] at hg; rw [hg])
      unfold Radio.updateMeasurements
      dsimp only
      rw [hv]
    have hadd : Radio.addMeasurement c.pre.buffer st.buffer ⟨d, ts⟩ =
        ⟨w.opened.getD ts, ts, st.buffer.lastStepTs, w.pending ++ [⟨d, ts⟩]⟩ := by
      unfold Radio.addMeasurement
      dsimp only
      rw [b3]
      cases ho : w.opened with
      | none =>
        rw [if_pos (hb.none ho).1, hb.pending]
        simp
      | some t0 =>
        rw [if_neg (hb.some t0 ho).2, hb.pending, (hb.some t0 ho).1]
        simp
    have hex : st' = { Radio.updateMeasurements c.pre st ⟨.radio d, ts⟩ with
        buffer := (Radio.extractMeasurements c.env.radioSorts c.pre.buffer ⟨w.opened.getD ts, ts, st.buffer.lastStepTs, w.pending ++ [⟨d, ts⟩]⟩ t).2 } := by
      simp only [st', Radio.extractRadioMeasurements]
      rw [hu, hadd]
    have hr' : (Radio.closestAps c.env.radioSorts c.pre (Radio.extractMeasurements c.env.radioSorts c.pre.buffer
        ⟨w.opened.getD ts, ts, st.buffer.lastStepTs, w.pending ++ [⟨d, ts⟩]⟩ t).1).mapM (Radio.withDistance c.pre) = some radio := by
      rw [← hr]
      simp only [Radio.extractRadioMeasurements]
      rw [hu, hadd]
    by_cases hclose : spanOf c.cs ≤ ts - w.opened.getD ts
    · have hw2 : w' = ⟨some ts, [], some (ts, w.pending ++ [⟨d, ts⟩])⟩ := by
        rw [hw']; unfold Windows.hear; exact if_pos hclose
      have hpass := Radio.extract_pass c.env.radioSorts c.pre.buffer ⟨w.opened.getD ts, ts, st.buffer.lastStepTs, w.pending ++ [⟨d, ts⟩]⟩ t
        (by rw [b1]; dsimp only; omega)
      refine ⟨?_, Or.inr ⟨hclose, d, _, rfl, ha, rfl, by rw [hw2], by rw [hw2], ?_⟩⟩
      · rw [hex, hw2, hpass, b4, b2]
        dsimp only
        refine ⟨by simp, by simp, ?_, ?_⟩
        · intro t0 h0; cases h0; exact ⟨rfl, by dsimp only; omega⟩
        · rw [sub_self]; exact hsp
      · obtain ⟨a1, a2, a3⟩ := Radio.C17_average c.env.radioSorts hc.radioSorts c.pre.buffer
          ⟨w.opened.getD ts, ts, st.buffer.lastStepTs, w.pending ++ [⟨d, ts⟩]⟩ t (by rw [b1]; exact hclose)
        generalize (Radio.extractMeasurements c.env.radioSorts c.pre.buffer
          ⟨w.opened.getD ts, ts, st.buffer.lastStepTs, w.pending ++ [⟨d, ts⟩]⟩ t).1 = out at *
        have hcap : Radio.closestAps c.env.radioSorts c.pre out = out := by
          unfold Radio.closestAps; rw [hcl]; rfl
        rw [hcap, Radio.mapM_forall₂] at hr'
        have hsame : ∀ k e, Radio.withDistance c.pre k = some e → k.id = e.id ∧ k.rssi = e.rssi ∧ k.power = e.power := by
          intro k e hke
          obtain ⟨e', h1, h2, -⟩ := Radio.C22_distance ls hc.map.nodup c.cs k
          rw [← hpre, hke] at h1
          cases h1
          rw [h2]
          exact ⟨rfl, rfl, rfl⟩
        have hids : out.map RadioData.id = radio.map RadioData.id := forall₂_map_eq (fun a b h => (hsame a b h).1) hr'
        refine ⟨⟨by rw [← hids]; exact a1, ?_, ?_, ?_⟩, ?_⟩
        · intro id
          have := a2 id
          rw [hids] at this
          rw [← this, List.mem_map]
        · intro e he
          obtain ⟨k, hk, hke⟩ := forall₂_exists hr' he
          obtain ⟨h1, h2, -⟩ := hsame k e hke
          rw [← h2, ← h1]
          exact (a3 k hk).1
        · intro e he
          obtain ⟨k, hk, hke⟩ := forall₂_exists hr' he
          obtain ⟨h1, -, h3⟩ := hsame k e hke
          obtain ⟨-, -, m, hm, e1, -, e2, -⟩ := a3 k hk
          exact ⟨m, hm, by rw [e1, h1], by rw [e2, h3]⟩
        · intro e he hrtt
          obtain ⟨k, hk, hke⟩ := forall₂_exists hr' he
          obtain ⟨e', g1, -, g3, -⟩ := Radio.C22_distance ls hc.map.nodup c.cs k
          rw [← hpre, hke] at g1
          cases g1
          obtain ⟨-, e2, m, hm, e3, e4, -⟩ := a3 k hk
          obtain ⟨h1, -⟩ := hsame k e hke
          rw [g3 (by rw [← e4]; exact hrtt m hm (e3.trans h1)), e2, h1]
    · have hw2 : w' = ⟨some (w.opened.getD ts), w.pending ++ [⟨d, ts⟩], w.closed⟩ := by
        rw [hw']; unfold Windows.hear; exact if_neg hclose
      have hfail := Radio.extract_fail c.env.radioSorts c.pre.buffer ⟨w.opened.getD ts, ts, st.buffer.lastStepTs, w.pending ++ [⟨d, ts⟩]⟩ t
        (by rw [b1]; dsimp only; omega)
      rw [hfail, hnil] at hr'
      refine ⟨?_, Or.inl ⟨by simpa using hr'.symm, fun h => hclose h.2, by rw [hw2], fun _ => by rw [hw2], fun hn => absurd ⟨d, rfl, ha⟩ hn⟩⟩
      rw [hex, hw2, hfail]
      refine ⟨rfl, by simp, ?_, ?_⟩
      · intro t0 h0; cases h0; exact ⟨rfl, by dsimp only; omega⟩
      · dsimp only; omega
  · have hw' : w' = w := take_not_heard w hh
    have hu := ((update_heard hc st m).2 hh).2
    have hfail := Radio.extract_fail c.env.radioSorts c.pre.buffer st.buffer t (by rw [b1]; exact hb.gate)
    have hr' : (Radio.closestAps c.env.radioSorts c.pre (Radio.extractMeasurements c.env.radioSorts c.pre.buffer
        st.buffer t).1).mapM (Radio.withDistance c.pre) = some radio := by
      rw [← hr]
      simp only [Radio.extractRadioMeasurements]
      rw [hu]
    rw [hfail, hnil] at hr'
    refine ⟨?_, Or.inl ⟨by simpa using hr'.symm, fun h => hh h.1, by rw [hw'], fun h => absurd h hh, fun _ => by rw [hw']⟩⟩
    have hex : st'.buffer = { st.buffer with lastStepTs := Radio.stepTs st.buffer t } := by
      simp only [st', Radio.extractRadioMeasurements]
      rw [hu, hfail]
    rw [hex, hw']
    exact ⟨hb.pending, hb.none, hb.some, hb.gate⟩

/-! ## Level, zone and post-processor -/

theorem known_one {lv : Level} {id : String} {t : Transmitter XYZPoint} (h : Radio.Known [lv] id t) : lv.transmitter id = some t := by
  obtain ⟨l, h1, -, h3⟩ := h
  have : l = lv := by simpa using List.mem_of_find?_eq_some h1
  rw [← this]; exact h3

theorem admitted_known {lv : Level} {cs : CommonSettings} (hp : ByZones cs) {d : RadioData} (h : Radio.Admissible [lv] cs d) :
    ∃ t, lv.transmitter d.id = some t := by
  rcases h.2.2.2 with h | ⟨t, h, -⟩
  · rw [hp.unknown] at h; cases h
  · exact ⟨t, known_one h⟩

theorem mean_between {l : List ℝ} (hne : l ≠ []) {lo hi : ℝ} (h : ∀ x ∈ l, lo < x ∧ x < hi) : lo < Radio.mean l ∧ Radio.mean l < hi := by
  have hlen : (0 : ℝ) < l.length := by exact_mod_cast List.length_pos_iff.mpr hne
  have key : ∀ L : List ℝ, L ≠ [] → (∀ x ∈ L, lo < x ∧ x < hi) → lo * L.length < L.sum ∧ L.sum < hi * L.length := by
    intro L
    induction L with
    | nil => intro h; exact absurd rfl h
    | cons a L ih =>
      intro _ hL
      have ha := hL a (by simp)
      cases L with
      | nil => simpa using ha
      | cons b L =>
        obtain ⟨h1, h2⟩ := ih (by simp) (fun x hx => hL x (by simp [hx]))
        rw [List.sum_cons, List.length_cons (a := a)]
        push_cast at h1 h2 ⊢
        constructor <;> nlinarith
  obtain ⟨h1, h2⟩ := key l hne h
  unfold Radio.mean
  exact ⟨(lt_div_iff₀ hlen).mpr h1, (div_lt_iff₀ hlen).mpr h2⟩

/-- The handed out signals name the level. -/
theorem handed_level {lv : Level} {c : Cfg} (hc : Client [lv] c) (hp : ByZones c.cs) {win : List RadioMeasurement}
    {radio : List RadioData} (ho : HandedOut win radio) (hwin : win ≠ []) (ha : ∀ h ∈ win, Radio.Admissible [lv] c.cs h.data) :
    detectLevel c radio = some lv.id := by
  have hlevels : (collect [lv]).levels = [lv] := (C12_lookup [lv] "").1
  unfold detectLevel
  rw [hc.parts.detector, hc.parts.levels]
  unfold createLevelEstimator
  rw [if_neg (by rw [hp.radiomap]; simp [hp.algorithm])]
  dsimp only
  rw [hp.txPower]
  have hin : ∀ e ∈ radio, (∃ m ∈ win, m.data.id = e.id) := fun e he => (ho.ids e.id).mp ⟨e, he, rfl⟩
  rcases LevelEst.C27_some_level (collect [lv]) radio (by
    intro e he
    have hr := ho.rssi e he
    obtain ⟨m, hm, hid⟩ := hin e he
    have hb := mean_between (l := (Radio.ofTransmitter e.id win).map (·.data.rssi)) (lo := -1000) (hi := 0)
      (by
        intro hnil
        have : m ∈ Radio.ofTransmitter e.id win := by simp [Radio.ofTransmitter, hm, hid]
        rw [List.map_eq_nil_iff.mp hnil] at this
        cases this)
      (by
        intro x hx
        obtain ⟨m', hm', rfl⟩ := List.mem_map.mp hx
        have h1 := (ha m' (List.mem_of_mem_filter hm')).2.1 hp.strength
        exact ⟨lt_of_le_of_lt hp.cutOff h1.1, h1.2⟩)
    rw [hr]
    exact ⟨hb.1, hb.2.le⟩) with ⟨h1, -⟩ | ⟨l, hl, -, h2⟩
  · exfalso
    have h1 := h1 lv (by rw [hlevels]; simp)
    obtain ⟨m, hm⟩ := List.exists_mem_of_ne_nil win hwin
    obtain ⟨e, he, hid⟩ := (ho.ids m.data.id).mpr ⟨m, hm, rfl⟩
    obtain ⟨t, ht⟩ := admitted_known hp (ha m hm)
    have : e ∈ LevelEst.heardOn lv radio := by
      simp only [LevelEst.heardOn, List.mem_filter]
      refine ⟨he, ?_⟩
      rw [hid]
      unfold Level.containsTransmitter
      unfold Level.transmitter at ht
      rw [ht]; rfl
    rw [h1] at this
    cases this
  · rw [hlevels, List.mem_singleton] at hl
    rw [h2, hl]

/-- The place of a zone. -/
structure ZoneAt (c : Cfg) (lv : Level) (t0 : Int) (win : List RadioMeasurement) (b : String) (t : Transmitter XYZPoint) (p : Position) : Prop where
  strongest : Strongest win b
  tx : lv.transmitter b = some t
  x : p.x = t.point.x
  y : p.y = t.point.y
  levelId : p.levelId = lv.id
  ts : p.ts = t0
  isEmpty : p.isEmpty = false
  provider : p.provider = .INDOOR
  formula : ∀ A B a b', c.indoor = .zone A B → StdMap.find? A lv.id = some a → StdMap.find? B lv.id = some b' → b' ≠ 0 →
    1 < p.deviationM ∧ p.deviationM = Real.exp ((a - meanRssi win b) / (2 * b')) + 1

theorem handed_zone {lv : Level} {c : Cfg} (hc : Client [lv] c) (hp : ByZones c.cs) {win : List RadioMeasurement}
    {radio : List RadioData} (ho : HandedOut win radio) (hwin : win ≠ []) (ha : ∀ h ∈ win, Radio.Admissible [lv] c.cs h.data)
    (old : Position) (ts : Int) :
    ∃ p b t, indoorPosition c old lv ts radio = .ok (.OK, p, old) ∧ ZoneAt c lv ts win b t p := by
  obtain ⟨A, B, hz⟩ : ∃ A B, c.indoor = .zone A B := by
    rcases hc.parts.indoor with ⟨h, -⟩ | ⟨-, h⟩
    · exact absurd h hp.algorithm
    · exact h
  obtain ⟨-, hz2⟩ := Estim.C33_zone A B lv ts radio
  have hall : radio.filter (fun m => (lv.transmitter m.id).isSome) = radio := by
    rw [List.filter_eq_self]
    intro e he
    obtain ⟨m, hm, hid⟩ := (ho.ids e.id).mp ⟨e, he, rfl⟩
    obtain ⟨t, ht⟩ := admitted_known hp (ha m hm)
    rw [← hid, ht]; rfl
  rw [hall] at hz2
  obtain ⟨m0, hm0⟩ := List.exists_mem_of_ne_nil win hwin
  obtain ⟨e0, he0, -⟩ := (ho.ids m0.data.id).mpr ⟨m0, hm0, rfl⟩
  obtain ⟨bef, m, aft, t, prec, h1, h2, h3, h4, h6, h7⟩ := hz2 (List.ne_nil_of_mem he0)
  have hm : m ∈ radio := by rw [h1]; simp
  refine ⟨_, m.id, t, by unfold indoorPosition; rw [hz]; dsimp only; rw [h6], ?_, h4, rfl, rfl, rfl, rfl, rfl, rfl, ?_⟩
  · refine ⟨(ho.ids m.id).mp ⟨m, hm, rfl⟩, ?_⟩
    intro u hu
    obtain ⟨e, he, hid⟩ := (ho.ids u.data.id).mpr ⟨u, hu, rfl⟩
    rw [← hid, ← ho.rssi e he, ← ho.rssi m hm]
    have hs := ho.sorted
    rw [h1] at he hs
    rcases List.mem_append.mp he with he | he
    · exact Or.inl (h2 e he)
    · rcases List.mem_cons.mp he with rfl | he
      · exact Or.inr ⟨rfl, le_refl _⟩
      · rcases lt_or_eq_of_le (h3 e he) with h | h
        · exact Or.inl h
        · right
          refine ⟨h, le_of_lt ?_⟩
          rw [List.map_append, List.map_cons, List.pairwise_append] at hs
          exact (List.pairwise_cons.mp hs.2.1).1 e.id (List.mem_map_of_mem he)
  · intro A' B' a b' hz' hA hB hb
    rw [hz] at hz'
    cases hz'
    rw [← ho.rssi m hm]
    exact h7 a b' hA hB hb

theorem handed_nothing {lv : Level} {c : Cfg} (hc : Client [lv] c) (hp : ByZones c.cs) (old : Position) (ts : Int) :
    indoorPosition c old lv ts [] = .ok (.NO_SOLUTION, Position.default, old) := by
  obtain ⟨A, B, hz⟩ : ∃ A B, c.indoor = .zone A B := by
    rcases hc.parts.indoor with ⟨h, -⟩ | ⟨-, h⟩
    · exact absurd h hp.algorithm
    · exact h
  unfold indoorPosition
  rw [hz]
  rfl

/-- The fused position is the last one of the indoor estimator. -/
theorem plain_fused {cs : CommonSettings} (hp : Windowed cs) (s : Post.PostState) (ts : Int) (i o : Position)
    (st : NavigationStatus) :
    let r := Post.fusePositions cs s ts i o st
    r.2.indoorPos = (if i.isEmpty then s.indoorPos else i) ∧ r.1 = r.2.indoorPos := by
  intro r
  have h2 : r.2.indoorPos = (if i.isEmpty then s.indoorPos else i) := by
    simp only [r, Post.fusePositions]
    unfold Post.fillOutdoor Post.fillIndoor
    split_ifs <;> rfl
  refine ⟨h2, ?_⟩
  have : r.1 = if cs.preferIndoorSolution = true ∧ i.isEmpty = false ∧ st = .OK then i else r.2.indoorPos := by
    simp only [r, Post.fusePositions, Post.chooseFused, hp.gps, hp.instantGps]
    simp
  rw [this]
  split_ifs with h
  · rw [h2, h.2.1]; simp
  · rfl

theorem toLongLong_eq {x : ℝ} (h : 0 ≤ x) : Post.toLongLong x = ⌊x⌋ := if_pos h

theorem fit_inside {lo hi x : ℝ} (h1 : lo ≤ x) (h2 : x ≤ hi) : Post.fitCoordinate lo hi x = downToCm x := by
  unfold Post.fitCoordinate downToCm
  rw [max_eq_left h1, min_eq_left h2]

/-- The post-processor only rounds. -/
theorem framed_processed {cs : CommonSettings} (hp : Framed cs) (hps : cs.useSmoothing = false) (allowed : ℝ → ℝ → Prop) (s : Post.PostState) (fused : Position)
    (ts lm : Int) (lv : Level) {p : Position × Post.PostState} (h : Post.getProcessedPosition cs allowed s fused ts lm lv = some p) :
    p.2.indoorPos = s.indoorPos ∧
    (fused.isEmpty = true → p.1 = Position.default) ∧
    (fused.isEmpty = false →
      (Estim.Box.Covers lv.geometry.boundingBox fused.toXY ∧ ts - fused.ts < ⌊1000 * cs.deadReckoningTime⌋ →
        p.1 = { fused with ts := ts, deviationM := s.indoorPos.deviationM, x := downToCm fused.x, y := downToCm fused.y }) ∧
      (¬ (Estim.Box.Covers lv.geometry.boundingBox fused.toXY ∧ ts - fused.ts < ⌊1000 * cs.deadReckoningTime⌋) →
        p.1 = Position.default)) := by
  have hd : Post.toLongLong (1000 * cs.deadReckoningTime) = ⌊1000 * cs.deadReckoningTime⌋ :=
    toLongLong_eq (by have := hp.reckoning; linarith)
  have hin : Post.isInsideMap cs fused lv ↔ Estim.Box.Covers lv.geometry.boundingBox fused.toXY := by
    unfold Post.isInsideMap; rw [hp.outside]; simp
  unfold Post.getProcessedPosition at h
  dsimp only at h
  rw [hd] at h
  generalize hs1 : (if lm > 0 then { s with lastStepTs := lm } else s) = s1 at h
  have hind : s1.indoorPos = s.indoorPos := by rw [← hs1]; split_ifs <;> rfl
  by_cases he : fused.isEmpty = true
  · rw [if_pos he] at h
    cases h
    exact ⟨hind, fun _ => rfl, fun h => by rw [he] at h; cases h⟩
  rw [if_neg he] at h
  have he' : fused.isEmpty = false := by simpa using he
  by_cases hb : Estim.Box.Covers lv.geometry.boundingBox fused.toXY
  swap
  · rw [if_pos (by rw [hin]; exact hb)] at h
    cases h
    exact ⟨hind, fun h => absurd h he, fun _ => ⟨fun h => absurd h.1 hb, fun _ => rfl⟩⟩
  rw [if_neg (by rw [hin]; simpa using hb)] at h
  by_cases ht : ts - fused.ts < ⌊1000 * cs.deadReckoningTime⌋
  swap
  · rw [if_pos (by omega)] at h
    cases h
    exact ⟨hind, fun h => absurd h he, fun _ => ⟨fun h => absurd h.2 ht, fun _ => rfl⟩⟩
  rw [if_neg (by omega)] at h
  have hsm : Post.smoothing cs allowed s1 fused ts = some (fused, s1) := by
    unfold Post.smoothing
    simp [hps, hp.timeSmoothing]
  rw [hsm, Option.bind_some] at h
  have hto : Post.takeOver cs s1 fused ts = { s1 with lastOut := { fused with ts := ts, deviationM := s1.indoorPos.deviationM } } := by
    unfold Post.takeOver
    simp [hp.stops]
  have hsn : ∀ q, Post.snapToGraph cs lv q = some q := by
    intro q
    unfold Post.snapToGraph
    simp [hp.graph]
  dsimp only at h
  rw [hto, hsn, Option.map_some, Option.some.injEq] at h
  rw [← h]
  refine ⟨hind, fun h => absurd h he, fun _ => ⟨fun _ => ?_, fun h => absurd ⟨hb, ht⟩ h⟩⟩
  obtain ⟨b1, b2, b3, b4⟩ := hb
  unfold Post.fitInBox
  dsimp only
  have e1 := fit_inside b1 b2
  have e2 := fit_inside b3 b4
  simp only [Position.toXY] at e1 e2
  rw [e1, e2, hind]

end Verif.Nav
