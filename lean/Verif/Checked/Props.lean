import Verif.Checked.ClientLemmas
import Verif.Checked.Spec
import Verif.Estim.Props
import Verif.Nav.Examples

/-!
# Property theorems: C115, the arithmetic of the client is defined
-/

namespace Verif.Checked

open Verif Verif.Levels
open Verif.Nav (Cfg State Garbage Client Sensed Located orThrow)
open Verif.Knn (Result)

/-- The conditions make the constants and the first state what the invariant asks for. -/
theorem cfg_ok {ls : List Level} {c : Cfg} {levelSettings : List (String × Estim.LevelSettings)}
    (hc : Nav.mkCfg c.env (collect ls) c.cs levelSettings = some c) (hs : SafeSettings c.cs) (hm : SafeMap ls)
    (hz : SafeZones c.cs levelSettings ls) : CfgOk c := by
  unfold Nav.mkCfg at hc
  rw [Option.map_eq_some_iff] at hc
  obtain ⟨indoor, hi, hc⟩ := hc
  have hlv : (collect ls).levels = ls := (C12_lookup ls "").1
  have e1 : c.levels = collect ls := by rw [← hc]
  have e2 : c.pre = Radio.mkCfg (collect ls) c.cs := by rw [← hc]
  have e3 : c.indoor = indoor := by rw [← hc]
  refine ⟨⟨hs.stopDetection, hs.stopUpdate, hs.deadReckoning, hs.gps, hs.prior, hs.speed⟩, ?_, ?_, ?_, ?_, ?_⟩
  · rw [e2, e1]; rfl
  · rw [e2]
    obtain ⟨a1, a2⟩ := trunc_safe hs.averaging
    obtain ⟨b1, b2⟩ := trunc_safe hs.shift
    change Safe (Radio.createRadioMeasurementBuffer c.cs).keepMs
    unfold Radio.createRadioMeasurementBuffer Safe
    dsimp only
    split_ifs <;> omega
  · rw [e1]
    intro l hl
    rw [hlv] at hl
    exact hm.slope l hl
  · intro A B hAB l hl
    rw [e1, hlv] at hl
    rw [e3] at hAB
    subst hAB
    unfold Nav.createPositionEstimator at hi
    split_ifs at hi with hk
    · cases hi
    rw [Option.map_eq_some_iff] at hi
    obtain ⟨ab, hab, h⟩ := hi
    cases h
    obtain ⟨st, h1, -, h3⟩ := (Estim.C33_params levelSettings (collect ls)).2 ab.1 ab.2 hab l (by rw [hlv]; exact hl)
    rw [h3]
    exact hz hk l hl st h1
  · intro l hl
    rw [e1, hlv] at hl
    have h := abs_lt.mp (hm.latitude l hl)
    have hp := Real.pi_pos
    refine (Real.cos_pos_of_mem_Ioo ⟨?_, ?_⟩).ne' <;> unfold Geo.degToRad <;> nlinarith

/-- **C115.** The constructor: its checked version does not fail and builds the same client. -/
theorem C115_constructor (env : Nav.Env) (c : LevelCollector) (cs : CommonSettings)
    (levelSettings : List (String × Estim.LevelSettings)) (hs : SafeSettings cs) :
    mkCfg env c cs levelSettings = some (Nav.mkCfg env c cs levelSettings) := by
  have hmul : ∀ n : Int, |n| ≤ 10 ^ 15 → mul 1000 n = some (1000 * n) := by
    intro n hn
    obtain ⟨h1, h2⟩ := abs_le.mp hn
    unfold mul
    rw [if_pos]
    unfold InLong
    omega
  have hb : createRadioMeasurementBuffer cs = some (Radio.createRadioMeasurementBuffer cs) := by
    obtain ⟨a1, a2⟩ := trunc_safe hs.averaging
    obtain ⟨b1, b2⟩ := trunc_safe hs.shift
    unfold createRadioMeasurementBuffer Radio.createRadioMeasurementBuffer
    rw [toLong_eq hs.averaging, toLong_eq hs.shift, toLong_eq hs.stopDetection]
    simp only [Option.bind_eq_bind, Option.bind_some]
    rw [sub_eq ⟨by omega, by omega⟩ (by split_ifs <;> exact ⟨by omega, by omega⟩)]
    rfl
  unfold mkCfg
  rw [hmul _ hs.noSignal, hmul _ hs.noAction, hb]
  rfl

/-- Calls from any good state. -/
theorem navigateAll_eq {c : Cfg} (hc : CfgOk c) (batches : List (List Measurement)) :
    ∀ {t : Int} {s : State} (_ : StateOk c t s) (_ : Safe s.pre.lastSignalTs) (_ : ∀ b ∈ batches, ∀ m ∈ b, Safe m.ts)
      (_ : c.cs.fuseGps = true → Nav.Ordered (Nav.taken batches) ∧ ∀ m ∈ Nav.taken batches, t ≤ m.ts),
      navigateAll c s batches = some (Nav.navigateAll c s batches) := by
  induction batches with
  | nil => intro t s _ _ _ _; rfl
  | cons b bs ih =>
    intro t s h hsig hr ho
    have htk : Nav.taken (b :: bs) = Nav.records b ++ Nav.taken bs := List.flatMap_cons
    obtain ⟨h1, h2⟩ := navigate_eq hc h hsig b (hr b List.mem_cons_self)
      (fun hf m hm => (ho hf).2 m (by rw [htk]; exact List.mem_append_left _ hm))
    unfold navigateAll Nav.navigateAll
    refine bindR_eq h1 ?_
    intro r hr'
    obtain ⟨k1, k2⟩ := h2 r hr'
    refine bindR_eq (ih k2 k1 (fun b hb => hr b (List.mem_cons_of_mem _ hb)) ?_) ?_
    · intro hf
      obtain ⟨o1, o2⟩ := ho hf
      rw [htk] at o1 o2
      obtain ⟨p1, p2, p3⟩ := List.pairwise_append.mp o1
      refine ⟨p2, ?_⟩
      intro m hm
      cases hl : (Nav.records b).getLast? with
      | none => exact o2 m (List.mem_append_right _ hm)
      | some w => exact p3 w (List.mem_of_getLast? hl) m hm
    · intro r' _
      rfl

/-- **C115.** A client whose map, settings and times meet the conditions never divides by zero, takes no root of a negative
number, no logarithm of a number that is not positive and no arc sine outside its domain, and no `long long` overflows, in any
sequence of calls: the run with checked arithmetic computes what the run without checks computes. -/
theorem C115_run {ls : List Level} {c : Cfg} {levelSettings : List (String × Estim.LevelSettings)}
    (hc : Nav.mkCfg c.env (collect ls) c.cs levelSettings = some c) (hs : SafeSettings c.cs) (hm : SafeMap ls)
    (hz : SafeZones c.cs levelSettings ls) (g : Garbage) (hg : SafeMemory g) (batches : List (List Measurement))
    (ht : SafeTimes c.cs batches) :
    navigateAll c (Nav.init c g) batches = some (Nav.navigateAll c (Nav.init c g) batches) := by
  have hcfg := cfg_ok hc hs hm hz
  cases hb : Nav.taken batches with
  | nil =>
    exact navigateAll_eq hcfg batches (init_ok c hcfg 0 g hg.sensor hg.magn hg.accel) hg.signal ht.range
      (fun hf => ⟨ht.order hf, fun m h => by rw [hb] at h; cases h⟩)
  | cons w ws =>
    refine navigateAll_eq hcfg batches (init_ok c hcfg w.ts g hg.sensor hg.magn hg.accel) hg.signal ht.range
      (fun hf => ⟨ht.order hf, ?_⟩)
    have ho := ht.order hf
    rw [hb] at ho ⊢
    intro m hmem
    rcases List.mem_cons.mp hmem with rfl | h
    · exact le_rfl
    · exact (List.pairwise_cons.mp ho).1 m h

/-- **C115.** For a client as in C64 every call also succeeds: no exception, no undefined behaviour, no undefined arithmetic. -/
theorem C115_client {ls : List Level} {c : Cfg} (hcl : Client ls c) {levelSettings : List (String × Estim.LevelSettings)}
    (hc : Nav.mkCfg c.env (collect ls) c.cs levelSettings = some c) (hs : SafeSettings c.cs) (hm : SafeMap ls)
    (hz : SafeZones c.cs levelSettings ls) (g : Garbage) (hg : SafeMemory g) (batches : List (List Measurement))
    (ht : SafeTimes c.cs batches) : ∃ r, navigateAll c (Nav.init c g) batches = some (.ok r) := by
  rw [C115_run hc hs hm hz g hg batches ht]
  suffices h : ∀ s, Nav.Inv ls c s → ∃ r, Nav.navigateAll c s batches = .ok r by
    obtain ⟨r, hr⟩ := h _ (Nav.inv_init hcl g)
    exact ⟨r, by rw [hr]⟩
  clear ht hg
  induction batches with
  | nil => intro s _; exact ⟨_, rfl⟩
  | cons b bs ih =>
    intro s hi
    obtain ⟨s', outs, h1, h2⟩ := Nav.runs_defined hcl hi (Nav.records b)
    obtain ⟨r, hr⟩ := ih s' h2
    refine ⟨(r.1, outs ++ r.2), ?_⟩
    unfold Nav.navigateAll
    rw [Nav.navigate_eq, h1]
    change Nav.andThen (Nav.navigateAll c s' bs) _ = _
    rw [hr]
    rfl

/-- The conditions are met by a client with default settings and a measurement stream out of order. -/
example : SafeSettings Nav.exCfg.cs ∧ SafeMap [Nav.exLevel] ∧ SafeZones Nav.exCfg.cs [("A", ⟨-59, 10⟩)] [Nav.exLevel] ∧
    SafeMemory (Nav.exMemory .ACCELEROMETER) ∧
    SafeTimes Nav.exCfg.cs [[Nav.exRadio 2000, Nav.exAccel 1000], [Nav.exFix, Nav.exAccel 500]] := by
  refine ⟨?_, ⟨?_, ?_⟩, ?_, ⟨safe_zero, safe_zero, safe_zero, safe_zero⟩, ⟨?_, fun h => by cases h⟩⟩
  · constructor <;> simp [Nav.exCfg, Moderate] <;> norm_num
  · intro l hl id t h
    rw [List.mem_singleton.mp hl] at h
    simp only [Level.transmitter, Nav.exLevel, bareLevel, Level.addTransmitters, List.foldl, StdMap.insert, StdMap.find?,
      StdMap.insertSorted] at h
    have h' : StdMap.find? [("tx", Nav.exTx)] id = some t := h
    unfold StdMap.find? at h'
    split_ifs at h'
    · cases h'; simp [Nav.exTx]
    · cases h'
  · intro l hl
    rw [List.mem_singleton.mp hl]
    simp [Nav.exLevel, bareLevel, Level.addTransmitters]
  · intro _ l hl st h
    rw [List.mem_singleton.mp hl] at h
    simp [StdMap.find?, Nav.exLevel, bareLevel, Level.addTransmitters] at h
    rw [← h]
    norm_num
  · intro b hb m hm
    simp only [List.mem_cons, List.not_mem_nil, or_false] at hb
    rcases hb with rfl | rfl <;> simp only [List.mem_cons, List.not_mem_nil, or_false] at hm <;> rcases hm with rfl | rfl <;>
      simp [Safe, Nav.exRadio, Nav.exAccel, Nav.exFix]

/-! ## Where the conditions fail -/

/-- **C115.** The first measurement after the constructor overflows a `long long` if the memory that the constructor leaves as
it was holds `-2^63`: the client subtracts the time of the last signal before there was one. -/
theorem C115_uninitialised {ls : List Level} {c : Cfg} (hcl : Client ls c)
    {levelSettings : List (String × Estim.LevelSettings)}
    (hc : Nav.mkCfg c.env (collect ls) c.cs levelSettings = some c) (hs : SafeSettings c.cs) (hm : SafeMap ls)
    (hz : SafeZones c.cs levelSettings ls) (g : Garbage) (hg : g.lastSignalTs = -2 ^ 63) (h2 : Safe g.sensor.ts)
    (h3 : Safe g.magn.2) (h4 : Safe g.accel.2) (m : Measurement) (hr : ∀ d, m.data ≠ .radio d) (h0 : 0 ≤ m.ts)
    (ht : Safe m.ts) : navigate c (Nav.init c g) [m] = none := by
  have hcfg := cfg_ok hc hs hm hz
  obtain ⟨a, b⟩ := sense_eq hcfg (init_ok c hcfg m.ts g h2 h3 h4) m ht
  obtain ⟨x, hx, -⟩ := Nav.sense_defined hcl (Nav.inv_init hcl g) m
  have hx' := b x hx
  have hq : x.pre.lastSignalTs = -2 ^ 63 := (hx'.quiet hr).trans hg
  have hto : timedOutLevel c x = none := by
    unfold timedOutLevel
    have : sub x.pre.currentTs x.pre.lastSignalTs = none := by
      unfold sub
      rw [if_neg]
      rw [hx'.now, hq]
      unfold InLong
      omega
    rw [this]
    rfl
  have hst : step c (Nav.init c g) m = none := by
    unfold step
    rw [a, hx]
    change bindR (locate c (Nav.init c g) x) _ = none
    have : locate c (Nav.init c g) x = none := by
      unfold locate
      rw [hto]
      rfl
    rw [this]
    rfl
  change loop c (Nav.init c g) m.ts [m] = none
  unfold loop
  rw [if_neg (lt_irrefl _), hst]
  rfl

/-- There is such a client, with such memory and such a measurement. -/
example : Client [Nav.exLevel] Nav.exCfg ∧ (∀ d, (Nav.exAccel 1000).data ≠ .radio d) ∧ 0 ≤ (Nav.exAccel 1000).ts ∧
    Safe (Nav.exAccel 1000).ts := by
  refine ⟨Nav.exClient, ?_, ?_, ?_⟩
  · intro d h
    simp [Nav.exAccel] at h
  · simp [Nav.exAccel]
  · simp [Safe, Nav.exAccel]

/-- **C115.** A position on a level that is bound to a pole is not reported: the longitude divides by zero. -/
theorem C115_pole (c : Cfg) (x : Sensed) (l : Located) (lv : Level) (he : l.state.position.isEmpty = false)
    (hn : l.state.position.levelId ≠ "") (hlv : Levels.level c.levels l.state.position.levelId = some lv)
    (hp : lv.bindingPoint.latitude = 90) : report c x l = none := by
  have h0 : Geo.latitudeCircumference lv.bindingPoint = 0 := by
    unfold Geo.latitudeCircumference Geo.degToRad
    rw [hp, show (90 : ℝ) * Real.pi / 180 = Real.pi / 2 by ring, Real.cos_pi_div_two, mul_zero]
  unfold report
  dsimp only
  rw [if_neg (by rw [he]; simp), if_pos hn, hlv]
  change (localToGps _ _ >>= _) = none
  unfold localToGps div
  rw [if_pos h0]
  rfl

/-- **C115.** A signal of a transmitter without a path loss slope divides by zero. -/
theorem C115_slope (cfg : Radio.Cfg) (m : RadioData) (id : String) (lv : Level) (t : Transmitter XYZPoint)
    (hm : m.type ≠ .WIFI_RTT) (h1 : findLevelByTransmitterId cfg.levelIndex m.id = some id)
    (h2 : Levels.level cfg.levelIndex id = some lv) (h3 : lv.transmitter m.id = some t) (h0 : t.pathloss.B = 0) :
    withDistance cfg m = none := by
  unfold withDistance
  rw [if_pos hm, h1]
  dsimp only
  rw [h2]
  dsimp only
  rw [h3]
  dsimp only
  unfold div
  rw [if_pos h0]
  rfl

/-- **C115.** Zone location on a level without a path loss slope divides by zero as soon as a transmitter of the level is
heard. -/
theorem C115_zone (A B : List (String × ℝ)) (lv : Level) (ts : Int) (radio : List RadioData) (m : RadioData)
    (hm : m ∈ radio) (hl : lv.containsTransmitter m.id = true) (h0 : StdMap.find? B lv.id = some 0) :
    zonePosition A B lv ts radio = none := by
  have hne : m ∈ getLevelRadioMeasurements RadioData.id lv radio := by
    unfold getLevelRadioMeasurements
    exact List.mem_filter.mpr ⟨hm, hl⟩
  unfold zonePosition
  rw [if_neg (by cases radio with | nil => cases hm | cons => simp)]
  cases hf : getLevelRadioMeasurements RadioData.id lv radio with
  | nil => rw [hf] at hne; cases hne
  | cons a as =>
    dsimp only [Estim.strongest]
    rw [h0]
    unfold div
    rw [Option.getD_some, if_pos rfl]
    rfl

/-- Settings with fusion of satellite and indoor positions. -/
noncomputable def fusing : CommonSettings := { useGps := true, fuseGps := true }

/-- An indoor position at the origin. -/
noncomputable def indoorAt (ts : Int) : Position := ⟨0, 0, "A", 1, ts, false, .INDOOR, 0⟩

/-- A satellite position at the origin. -/
noncomputable def outdoorAt (ts : Int) : Position := ⟨0, 0, "A", 5, ts, false, .GNSS, 0⟩

/-- **C115.** Without the order of time the fusion of positions divides by zero, with otherwise default settings: an indoor
position at second 200, then both positions at second 118.5, as happens when the clock of the measurements is set back between two
batches. -/
theorem C115_clock_set_back :
    let s := (Post.fusePositions fusing (Post.postInit fusing) 200000 (indoorAt 200000) Position.default .OK).2
    fusePositions fusing s 118500 (indoorAt 118500) (outdoorAt 118500) .OK = none := by
  have hst : (Post.fusePositions fusing (Post.postInit fusing) 200000 (indoorAt 200000) Position.default .OK).2 =
      { Post.postInit fusing with indoorPos := indoorAt 200000, indoorDev := 51 / 2 } := by
    simp [Post.fusePositions, Post.fillOutdoor, Post.fillIndoor, Post.priorDev, Post.postInit, fusing, indoorAt,
      Position.default]
    norm_num
  dsimp only
  rw [hst]
  have h1 : Safe 200000 := by unfold Safe; omega
  have h2 : Safe 118500 := by unfold Safe; omega
  have e1 : fillIndoor fusing { Post.postInit fusing with indoorPos := indoorAt 200000, indoorDev := 51 / 2 }
      (indoorAt 118500) = some { Post.postInit fusing with indoorPos := indoorAt 118500, indoorDev := -55 / 2 } := by
    unfold fillIndoor
    rw [priorDev_eq _ _ _ h1 h2]
    simp [indoorAt, Post.priorDev, fusing]
    norm_num
  have e2 : fillOutdoor fusing { Post.postInit fusing with indoorPos := indoorAt 118500, indoorDev := -55 / 2 }
      (outdoorAt 118500) = some { Post.postInit fusing with
        indoorPos := indoorAt 118500, indoorDev := -55 / 2, outdoorPos := outdoorAt 118500, outdoorDev := 55 / 2 } := by
    unfold fillOutdoor
    rw [priorDev_eq _ _ _ safe_zero h2]
    simp [outdoorAt, Post.priorDev, fusing, Post.postInit, Position.default]
    norm_num
  unfold fusePositions
  rw [e1, Option.bind_eq_bind, Option.bind_some, e2, Option.bind_some]
  unfold chooseFused
  rw [delay_eq _ h2 _ h2, delay_eq _ h2 _ h2]
  simp only [getDist_eq, Option.bind_eq_bind, Option.bind_some]
  have d1 : Post.delay 118500 (indoorAt 118500) = 0 := by simp [Post.delay, indoorAt]
  have d2 : Post.delay 118500 (outdoorAt 118500) = 0 := by simp [Post.delay, outdoorAt]
  rw [d1, d2]
  simp [fusing, indoorAt, outdoorAt, Geometry.getDist, div]
  norm_num
  intro a h
  cases h

end Verif.Checked
