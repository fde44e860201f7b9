import Verif.Grow.Lemmas
import Verif.Nav.KnnExample
import Verif.Floors.Props

/-!
# C125: floors added to the map after the client was made
-/

namespace Verif.Grow

open Verif.Levels
open Verif.Knn (Result)
open Verif.Nav

/-- **C125.** A client that looks for the floor by transmitters works on the grown map exactly as a client made for
that map, whose settings give the added floors the path loss parameters 0, whatever the settings of the old client
say about them. -/
theorem C125_rebuilt {ls new : List Level} {c : Cfg} {se : List (String × Estim.LevelSettings)}
    (hc : mkCfg c.env (collect ls) c.cs se = some c) (hb : ByTransmitters c.cs) (hm : GoodMap (ls ++ new)) :
    ∃ c', mkCfg c.env (collect (ls ++ new)) c.cs (withoutParameters se new) = some c' ∧
      ∀ s batch, navigate (seeing c (collect (ls ++ new))) s batch = navigate c' s batch := by
  unfold mkCfg createPositionEstimator at hc
  rw [if_neg hb.2] at hc
  cases hz : Estim.zoneParams se (collect ls) with
  | none => rw [hz] at hc; simp at hc
  | some ab =>
    obtain ⟨A, B⟩ := ab
    rw [hz, Option.map_some, Option.map_some, Option.some.injEq] at hc
    obtain ⟨A', B', h1, h2⟩ := params_grown hm.nodup hz
    have e1 : c.indoor = .zone A B := by rw [← hc]
    have e2 : c.detector = .transmitters c.cs.useTxPower := by
      rw [← hc]
      dsimp only
      unfold createLevelEstimator
      rw [if_neg]
      rintro (h | h)
      · have := hb.1; rw [h] at this; cases this
      · exact hb.2 h
    have e3 : c.noSignal = 1000 * c.cs.noSignalTimeThreshold := by rw [← hc]
    have e4 : c.noAction = 1000 * c.cs.noActionTimeThreshold := by rw [← hc]
    have e5 : c.fusion = Fusion.fusionConfig c.cs := by rw [← hc]
    have e6 : c.pre = Radio.mkCfg (collect ls) c.cs := by rw [← hc]
    have e7 : createLevelEstimator (collect (ls ++ new)) c.cs = .transmitters c.cs.useTxPower := by
      unfold createLevelEstimator
      rw [if_neg]
      rintro (h | h)
      · have := hb.1; rw [h] at this; cases this
      · exact hb.2 h
    refine ⟨{ seeing c (collect (ls ++ new)) with indoor := .zone A' B' }, ?_, ?_⟩
    · unfold mkCfg createPositionEstimator
      rw [if_neg hb.2, h1, Option.map_some, Option.map_some, e7, Option.some.injEq]
      unfold seeing
      rw [e2, e3, e4, e5, e6]
      rfl
    · intro s batch
      rw [navigate_eq, navigate_eq]
      refine runs_congr (step_congr rfl ?_) s _
      intro p l t r
      unfold indoorPosition
      have : (seeing c (collect (ls ++ new))).indoor = .zone A B := e1
      rw [this]
      dsimp only
      have hz : Estim.zonePosition A B l t r = Estim.zonePosition A' B' l t r := by
        unfold Estim.zonePosition
        rw [(h2 l.id).1, (h2 l.id).2]
      rw [hz]

/-- The client that a grown map amounts to. -/
theorem rebuilt_client {ls new : List Level} {c : Cfg} (hc : Client ls c) (hb : ByTransmitters c.cs) (hm : GoodMap (ls ++ new)) :
    ∃ c', Client (ls ++ new) c' ∧ c'.cs = c.cs ∧ c'.fusion = c.fusion ∧
      ∀ s batch, navigate (seeing c (collect (ls ++ new))) s batch = navigate c' s batch := by
  obtain ⟨se, hse⟩ := hc.built
  obtain ⟨c', h1, h2⟩ := C125_rebuilt hse hb hm
  have he : c'.env = c.env ∧ c'.cs = c.cs ∧ c'.fusion = c.fusion := by
    have hf := hc.parts.fusion
    unfold mkCfg at h1
    cases hi : createPositionEstimator c.env (collect (ls ++ new)) c.cs (withoutParameters se new) with
    | none => rw [hi] at h1; cases h1
    | some i => rw [hi, Option.map_some, Option.some.injEq] at h1; rw [← h1]; exact ⟨rfl, rfl, hf.symm⟩
  refine ⟨c', ⟨hm, by rw [he.2.1]; exact hc.settings, by rw [he.1]; exact hc.sort, by rw [he.1]; exact hc.radioSorts,
    withoutParameters se new, by rw [he.1, he.2.1]; exact h1⟩, he.2.1, he.2.2, h2⟩

/-! ## Sessions -/

theorem added_cons (k : Call) (ks : List Call) : added (k :: ks) = added [k] ++ added ks := by
  cases k <;> simp [added]

theorem added_append (a b : List Call) : added (a ++ b) = added a ++ added b := by
  simp [added]

/-- What is known about an object during a session. -/
structure Alive (c : Cfg) (L : List Level) (o : Object) : Prop where
  map : o.map = collect L
  inv : Inv L c o.state

theorem alive_init {ls : List Level} {c : Cfg} (hc : Client ls c) (g : Garbage) : Alive c ls ⟨collect ls, init c g, []⟩ :=
  ⟨rfl, inv_init hc g⟩

theorem alive_call {ls new : List Level} {c : Cfg} (hc : Client ls c) (hb : ByTransmitters c.cs) {o : Object}
    (ha : Alive c (ls ++ new) o) (k : Call) (hm : GoodMap (ls ++ new)) :
    ∃ o' os, call c o k = .ok (o', os) ∧ Alive c (ls ++ (new ++ added [k])) o' ∧ os.length = answers k ∧
      (∀ out ∈ os, Proper (ls ++ new) out) := by
  cases k with
  | addLevel l =>
    refine ⟨_, _, rfl, ⟨?_, ?_⟩, rfl, by intro out ho; cases ho⟩
    · change Levels.addLevel o.map l = _
      rw [ha.map, ← collect_snoc]
      simp [added]
    · refine inv_more ?_ rfl rfl hb.2 ha.inv
      intro x hx
      rw [← List.append_assoc]
      exact List.mem_append_left _ hx
  | navigate batch =>
    obtain ⟨c', h1, h2, h3, h4⟩ := rebuilt_client hc hb hm
    have hi : Inv (ls ++ new) c' o.state := inv_more (List.Subset.refl _) h2 h3 hb.2 ha.inv
    obtain ⟨s', outs, r1, r2⟩ := runs_defined h1 hi (records batch)
    have hn : navigate (seeing c o.map) o.state batch = .ok (s', outs) := by
      rw [ha.map, h4, navigate_eq, r1]
    refine ⟨⟨o.map, s', if batch.isEmpty then o.states else outs.map Prod.snd⟩, outs.map Prod.fst, ?_, ⟨?_, ?_⟩, ?_, ?_⟩
    · unfold call
      dsimp only
      rw [hn]
      rfl
    · change o.map = _
      rw [ha.map]
      simp [added]
    · have : added [Call.navigate batch] = [] := rfl
      rw [this, List.append_nil]
      exact inv_more (List.Subset.refl _) h2.symm h3.symm (by rw [h2]; exact hb.2) r2
    · rw [List.length_map]
      exact runs_length _ _ _ _ _ r1
    · intro out ho
      obtain ⟨x, hx, rfl⟩ := List.mem_map.mp ho
      exact proper_runs h1 hi r1 x hx

theorem alive_session {ls new : List Level} {c : Cfg} (hc : Client ls c) (hb : ByTransmitters c.cs) {o : Object}
    (ha : Alive c (ls ++ new) o) (ks : List Call) (hm : GoodMap (ls ++ (new ++ added ks))) :
    ∃ o' outs, session c o ks = .ok (o', outs) ∧ Alive c (ls ++ (new ++ added ks)) o' ∧ outs.map List.length = ks.map answers := by
  induction ks generalizing new o with
  | nil => exact ⟨o, [], rfl, by simpa [added] using ha, rfl⟩
  | cons k ks ih =>
    rw [added_cons, ← List.append_assoc new] at hm ⊢
    obtain ⟨o1, os, c1, c2, c3, -⟩ := alive_call hc hb ha k (by
      rw [List.append_assoc new, ← List.append_assoc ls] at hm; exact goodMap_left hm)
    obtain ⟨o2, outs, s1, s2, s3⟩ := ih c2 hm
    refine ⟨o2, os :: outs, ?_, s2, ?_⟩
    · change andThen (call c o k) _ = _
      rw [c1]
      simp only [andThen]
      rw [s1]
    · rw [List.map_cons, List.map_cons, c3, s3]

/-- **C125.** A client that looks for the floor by transmitters: whatever floors are added between the calls of
`navigate`, nothing throws and nothing is undefined behaviour, and each call answers the records it does not drop. -/
theorem C125_total {ls : List Level} {c : Cfg} (hc : Client ls c) (hb : ByTransmitters c.cs) (g : Garbage) (ks : List Call)
    (hm : GoodMap (ls ++ added ks)) :
    ∃ o outs, session c ⟨collect ls, init c g, []⟩ ks = .ok (o, outs) ∧ o.map = collect (ls ++ added ks) ∧
      outs.map List.length = ks.map answers := by
  obtain ⟨o, outs, h1, h2, h3⟩ := alive_session (new := []) hc hb (by simpa using alive_init hc g) ks hm
  exact ⟨o, outs, h1, h2.map, h3⟩

/-- **C125.** Every output of such a session is proper for the map at the time of the call: a place is on a floor
of the first map or on one added before. -/
theorem C125_outputs {ls : List Level} {c : Cfg} (hc : Client ls c) (hb : ByTransmitters c.cs) (g : Garbage) (before : List Call)
    (k : Call) (hm : GoodMap (ls ++ added before)) :
    ∃ o outs o' os, session c ⟨collect ls, init c g, []⟩ before = .ok (o, outs) ∧ call c o k = .ok (o', os) ∧
      ∀ out ∈ os, Proper (ls ++ added before) out := by
  obtain ⟨o, outs, h1, h2, -⟩ := alive_session (new := []) hc hb (by simpa using alive_init hc g) before hm
  obtain ⟨o', os, h3, -, -, h4⟩ := alive_call hc hb h2 k hm
  exact ⟨o, outs, o', os, h1, h3, h4⟩

/-! ## The debug states -/

/-- A call that leaves the debug states as they are. -/
def Quiet : Call → Prop
  | .addLevel _ => True
  | .navigate batch => batch = []

theorem quiet_call {c : Cfg} {o o' : Object} {k : Call} {os : List Output} (hq : Quiet k) (h : call c o k = .ok (o', os)) :
    o'.states = o.states := by
  cases k with
  | addLevel l => cases h; rfl
  | navigate batch => rw [show batch = [] from hq] at h; cases h; rfl

theorem quiet_session {c : Cfg} {o o' : Object} {ks : List Call} {outs : List (List Output)} (hq : ∀ k ∈ ks, Quiet k)
    (h : session c o ks = .ok (o', outs)) : o'.states = o.states := by
  induction ks generalizing o outs with
  | nil => cases h; rfl
  | cons k ks ih =>
    obtain ⟨⟨o1, os⟩, h2, h3⟩ := andThen_ok h
    obtain ⟨⟨o2, outs'⟩, h4, h5⟩ := andThen_ok h3
    simp only [Result.ok.injEq, Prod.mk.injEq] at h5
    exact (ih (fun k hk => hq k (List.mem_cons_of_mem _ hk)) (h5.1 ▸ h4)).trans (quiet_call (hq k List.mem_cons_self) h2)

/-- **C125.** For every client: `getStates` answers the debug states of the last call of `navigate` with a non-empty
batch, one for each output of that call; calls with an empty batch and added floors do not change them. -/
theorem C125_states {c : Cfg} {o1 o2 o3 : Object} {batch : List Measurement} {after : List Call} {os : List Output}
    {outs : List (List Output)} (hne : batch ≠ []) (h : call c o1 (.navigate batch) = .ok (o2, os))
    (hq : ∀ k ∈ after, Quiet k) (h' : session c o2 after = .ok (o3, outs)) :
    ∃ r, navigate (seeing c o1.map) o1.state batch = .ok (o2.state, r) ∧ getStates o3 = r.map Prod.snd ∧
      os = r.map Prod.fst ∧ (getStates o3).length = (records batch).length := by
  have hs := quiet_session hq h'
  unfold call at h
  dsimp only at h
  obtain ⟨⟨s', r⟩, h1, h2⟩ := andThen_ok h
  simp only [Result.ok.injEq, Prod.mk.injEq] at h2
  have hb : batch.isEmpty = false := by cases batch with
    | nil => exact absurd rfl hne
    | cons => rfl
  rw [hb] at h2
  have e : getStates o3 = r.map Prod.snd := by
    unfold getStates
    rw [hs, ← h2.1]
    rfl
  refine ⟨r, ?_, e, h2.2.symm, ?_⟩
  · rw [h1, ← h2.1]
  · rw [e, List.length_map]
    rw [navigate_eq] at h1
    exact runs_length _ _ _ _ _ h1

/-- **C125.** Before the first call with a non-empty batch there are no debug states. -/
theorem C125_no_states {c : Cfg} {map : LevelCollector} {s : State} {o : Object} {ks : List Call} {outs : List (List Output)}
    (hq : ∀ k ∈ ks, Quiet k) (h : session c ⟨map, s, []⟩ ks = .ok (o, outs)) : getStates o = [] :=
  quiet_session hq h

/-! ## Fingerprints -/

theorem stale_detect {ls new : List Level} {c : Cfg} (hc : Client ls c) (hf : c.cs.useRadiomap = true ∨ c.cs.useAlgorithm = .KNN)
    (hne : new ≠ []) (hm : GoodMap (ls ++ new)) (radio : List RadioData) :
    detectLevel (seeing c (collect (ls ++ new))) radio = none := by
  have hd : (seeing c (collect (ls ++ new))).detector = .radiomap c.cs.useBestRefPointLevel (Knn.getLevelsRadiomaps (collect ls)) := by
    change c.detector = _
    rw [hc.parts.detector]
    unfold createLevelEstimator
    rw [if_pos hf]
  unfold detectLevel
  rw [hd]
  dsimp only
  obtain ⟨l, new', rfl⟩ := List.exists_cons_of_ne_nil hne
  have hno : StdMap.find? (Knn.getLevelsRadiomaps (collect ls)) l.id = none := by
    rw [Knn.radiomaps_find, collect_levels, Option.map_eq_none_iff, List.find?_eq_none]
    intro k hk he
    have hn := hm.nodup
    rw [List.map_append] at hn
    rw [List.mem_reverse] at hk
    exact (List.nodup_append.mp hn).2.2 k.id (List.mem_map_of_mem hk) l.id (by simp) (by simpa using he)
  unfold Knn.detectByRadiomap
  have : (seeing c (collect (ls ++ l :: new'))).levels.levels = ls ++ l :: new' := collect_levels _
  rw [this, List.foldlM_append]
  cases List.foldlM (Knn.detectStep c.cs.useBestRefPointLevel (Knn.getLevelsRadiomaps (collect ls)) radio) (0, "") ls with
  | none => rfl
  | some b =>
    have hs : Knn.detectStep c.cs.useBestRefPointLevel (Knn.getLevelsRadiomaps (collect ls)) radio b l = none := by
      unfold Knn.detectStep
      rw [hno]
    simp [List.foldlM_cons, hs]

/-- **C125.** A client that looks for the floor by fingerprints (the setting `useRadiomap`, or the algorithm KNN): once
a floor has been added to its map, every call of `navigate` with a non-empty batch throws, whatever is measured,
and goes on throwing if the exceptions are caught. -/
theorem C125_fingerprints_throw {ls new : List Level} {c : Cfg} (hc : Client ls c)
    (hf : c.cs.useRadiomap = true ∨ c.cs.useAlgorithm = .KNN) (hne : new ≠ []) (hm : GoodMap (ls ++ new)) {s : State}
    (hs : Reachable c s) (batches : List (List Measurement)) (hb : ∀ b ∈ batches, b ≠ []) :
    AllThrow (seeing c (collect (ls ++ new))) s batches := by
  have hi := (inv_reachable hc hs).fusion
  clear hs
  induction batches generalizing s with
  | nil => exact .nil s
  | cons b bs ih =>
    obtain ⟨m, ms, rfl⟩ := List.exists_cons_of_ne_nil (hb b List.mem_cons_self)
    obtain ⟨j1, j2, hist, infos, pouts, hfi⟩ := hi
    set G := seeing c (collect (ls ++ new)) with hG
    set pre := Radio.updateMeasurements G.pre s.pre m with hpre
    obtain ⟨f', info, o, g1, g2, -⟩ := Fusion.fusion_step c.fusion j1 j2 hist s.fusion infos pouts hfi pre.sensor pre.currentTs
    have g1' : Fusion.calculateDisplacement G.fusion s.fusion pre.sensor pre.currentTs = some (f', info) := g1
    refine .cons (s' := { s with
      pre := (Radio.extractRadioMeasurements G.env.radioSorts G.pre pre info.lastMotionTs).2, fusion := f' }) ?_ ?_
      (ih (fun b hb' => hb b (List.mem_cons_of_mem _ hb')) ⟨j1, j2, _, _, _, g2⟩)
    · change loop G s m.ts (m :: ms) = .throws
      unfold loop
      rw [if_neg (lt_irrefl _)]
      have : step G s m = .throws := by
        unfold step sense
        dsimp only
        rw [← hpre, g1']
        simp only [orUndefined, andThen]
        cases (Radio.extractRadioMeasurements G.env.radioSorts G.pre pre info.lastMotionTs).1 with
        | none => rfl
        | some radio =>
          simp only [orThrow]
          rw [stale_detect hc hf hne hm radio]
      rw [this]
      rfl
    · unfold leftBehind
      dsimp only
      rw [← hpre, g1']
      rfl

/-! ## Examples -/

open Verif.Floors in
/-- **C125** is about possible sessions: a client is made for a map with the floor A, the floor B is added, and then the
beacon of floor B is heard twice.  The answer to the second signal names the added floor. -/
theorem C125_example (g : Garbage) :
    ∃ o outs o' out, session plainCfg ⟨collect [exLevel], init plainCfg g, []⟩
        [.addLevel upLevel, .navigate [sig "ty" 1000]] = .ok (o, outs) ∧
      call plainCfg o (.navigate [sig "ty" 3000]) = .ok (o', [out]) ∧ out.status = .OK ∧ out.posLevel = "B" := by
  have hb : ByTransmitters plainCfg.cs := ⟨rfl, by simp [plainCfg, plainSettings]⟩
  have hm : GoodMap ([exLevel] ++ [upLevel]) := twoClient.map
  obtain ⟨c', h1, h2, h3, h4⟩ := rebuilt_client plainClient hb hm
  have hinit : init plainCfg g = init c' g := by
    unfold init
    rw [h2]
  obtain ⟨s, r, n1, -⟩ := C79_total h1 g [[sig "ty" 1000]]
  have htk : taken [[sig "ty" 1000]] = [sig "ty" 1000] := by
    rw [show taken [[sig "ty" 1000]] = records [sig "ty" 1000] ++ [] from rfl, List.append_nil]
    exact records_ordered _ (by simp [Ordered])
  have hcs : c'.cs = twoCfg.cs := h2
  have hcut := cut_next (cut_first (.inr rfl) 1000) (.inr rfl) (id := "ty") (t := 3000) (by norm_num)
  obtain ⟨s', out, dbg, lv, t0, win, b, t, k1, ⟨k2, ds, k3, k4⟩, k5, k6, k7, -, k8, -⟩ := C118_floors h1 (by rw [hcs]; exact plain_settings) g _ n1
    (sig "ty" 3000) (by rw [htk]; simp [sig])
    ⟨[sig "ty" 1000], sig "ty" 3000, [], by rw [htk], ⟨_, rfl, by rw [hcs]; exact sig_admitted (.inr rfl)⟩, by simp,
      (by rw [hcs]; change (3000 : Int) < 3000 + 1000 * 35; norm_num)⟩
    (by rw [htk, hcs, show [exLevel] ++ [upLevel] = [exLevel, upLevel] from rfl, hcut.2]; simp)
  rw [htk, hcs, show [exLevel] ++ [upLevel] = [exLevel, upLevel] from rfl, hcut.2] at k3 k5
  have hlv : lv = upLevel := by
    cases k3 with
    | cons q1 q2 =>
      cases q2
      rw [floor_up (by
        intro m hm
        simp only [List.cons_append, List.nil_append, List.mem_cons, List.not_mem_nil, or_false] at hm
        rcases hm with rfl | rfl <;> rfl) q1] at k4
      have hidB : upLevel.id = "B" := rfl
      simp only [List.map_cons, List.map_nil, hidB] at k4
      rw [show (votes ["B"]).used = some "B" from rfl, Option.some.injEq] at k4
      simp only [List.cons_append, List.nil_append, List.mem_cons, List.not_mem_nil, or_false] at k2
      rcases k2 with rfl | rfl
      · exact absurd k4 (by simp [exLevel, bareLevel, Level.addTransmitters])
      · rfl
  subst hlv
  have ht0 : t0 = 3000 := (lastHeard_unique k5 (lastHeard_now [] _ (by simp [onFloor, heardSig, up_tx]))).1
  have hdead : ⌊1000 * twoCfg.cs.deadReckoningTime⌋ = 5000 := by
    have : (1000 : ℝ) * twoCfg.cs.deadReckoningTime = ((5000 : Int) : ℝ) := by
      simp [twoCfg, plainSettings]; norm_num
    rw [this, Int.floor_intCast]
  obtain ⟨a1, a2, -⟩ := k8 ⟨by
    rw [up_tx] at k7
    split_ifs at k7
    cases k7
    simp [Estim.Box.Covers, upLevel, bareLevel, Level.addTransmitters, upTx], by
    rw [ht0, hcs, hdead]; simp [sig]⟩
  obtain ⟨⟨sx, rx⟩, n2, n3⟩ := andThen_ok (show andThen (navigate c' (init c' g) [sig "ty" 1000]) _ = _ from n1)
  have n4 : sx = s := by
    change Result.ok _ = Result.ok _ at n3
    simp only [Result.ok.injEq, Prod.mk.injEq] at n3
    exact n3.1
  subst n4
  refine ⟨⟨collect [exLevel, upLevel], sx, rx.map Prod.snd⟩, [[], rx.map Prod.fst], ⟨collect [exLevel, upLevel], s', [dbg]⟩, out, ?_, ?_, a1, a2⟩
  · have e : Levels.addLevel (collect [exLevel]) upLevel = collect ([exLevel] ++ [upLevel]) := (collect_snoc _ _).symm
    have c1 : call plainCfg ⟨collect [exLevel], init plainCfg g, []⟩ (.addLevel upLevel) =
        .ok (⟨collect ([exLevel] ++ [upLevel]), init plainCfg g, []⟩, []) := by
      rw [← e]; rfl
    have c2 : call plainCfg ⟨collect ([exLevel] ++ [upLevel]), init plainCfg g, []⟩ (.navigate [sig "ty" 1000]) =
        .ok (⟨collect [exLevel, upLevel], sx, rx.map Prod.snd⟩, rx.map Prod.fst) := by
      unfold call
      dsimp only
      rw [h4, hinit, n2]
      rfl
    change andThen (call plainCfg _ (.addLevel upLevel)) _ = _
    rw [c1]
    change andThen (andThen (call plainCfg _ (.navigate [sig "ty" 1000])) _) _ = _
    rw [c2]
    rfl
  · unfold call
    dsimp only
    rw [show collect [exLevel, upLevel] = collect ([exLevel] ++ [upLevel]) from rfl, h4, k1]
    rfl

/-- The hypotheses of `C125_fingerprints_throw` hold for the client of C113 when a floor is added. -/
example (g : Garbage) (m : Measurement) :
    AllThrow (seeing printCfg (collect ([Knn.Witness2.lvl] ++ [exLevel]))) (init printCfg g) [[m], [m]] := by
  refine C125_fingerprints_throw printClient (.inr rfl) (by simp) ⟨?_, ?_, ?_, ?_⟩ (.start g) _ (by simp)
  · simp [Knn.Witness2.lvl, exLevel, bareLevel, Level.addTransmitters]
  · intro l hl
    simp only [List.cons_append, List.nil_append, List.mem_cons, List.not_mem_nil, or_false] at hl
    rcases hl with rfl | rfl
    · simp [Knn.Witness2.lvl]
    · simp [exLevel, bareLevel, Level.addTransmitters]
  · intro l hl
    simp only [List.cons_append, List.nil_append, List.mem_cons, List.not_mem_nil, or_false] at hl
    rcases hl with rfl | rfl <;> rfl
  · intro l hl
    simp only [List.cons_append, List.nil_append, List.mem_cons, List.not_mem_nil, or_false] at hl
    rcases hl with rfl | rfl <;> exact ⟨[], rfl⟩

end Verif.Grow
