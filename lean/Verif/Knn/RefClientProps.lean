import Verif.Knn.RefOrderProps
import Verif.Order.Props
import Verif.Prints.Lemmas
import Verif.Unheard.Props

/-!
# C154 for clients: the order of the reference points does not matter
-/

namespace Verif.RefOrder

open Verif.Levels Verif.Nav Verif.Floors
open Verif.Knn (Result Reordered Ordinary Generic Heaviest named)
open Verif.Unheard (andThen_same)

/-! ## Specification vocabulary -/

/-- In none of the windows two different triangles of a floor share the largest weight, unless it is below 2⁻⁵². -/
def NoTiedTriangles (s : Triang.Sorts) (ls : List Level) (cs : CommonSettings) (ws : List (Int × List RadioMeasurement)) : Prop :=
  ∀ w ∈ ws, ∀ l ∈ ls, ∀ avg, MapAverages l w.2 avg → ∀ t ∈ Knn.levelTriangles s l, ∀ u ∈ Knn.levelTriangles s l,
    (∀ v ∈ Knn.levelTriangles s l, meshWeight l cs avg v ≤ meshWeight l cs avg t) →
    (∀ v ∈ Knn.levelTriangles s l, meshWeight l cs avg v ≤ meshWeight l cs avg u) →
    1 / 2 ^ 52 ≤ meshWeight l cs avg t → u.corners.Perm t.corners

/-! ## Lemmas -/

/-- The two maps. -/
structure SameMap (c c' : LevelCollector) : Prop where
  indices : c'.indices = c.indices
  floors : List.Forall₂ Reordered c.levels c'.levels

theorem Reordered.plain {l l' : Level} (h : Reordered l l') : l'.id = l.id ∧ l'.bindingPoint = l.bindingPoint ∧
    l'.geometry = l.geometry ∧ l'.graph = l.graph ∧ l'.transmitter = l.transmitter ∧ l'.containsTransmitter = l.containsTransmitter := by
  obtain ⟨rps, -, rfl⟩ := h
  exact ⟨rfl, rfl, rfl, rfl, rfl, rfl⟩

theorem add_same {c c' : LevelCollector} (h : SameMap c c') {l l' : Level} (hl : Reordered l l') : SameMap (addLevel c l) (addLevel c' l') := by
  refine ⟨?_, List.rel_append h.floors (List.Forall₂.cons hl .nil)⟩
  unfold addLevel
  dsimp only
  rw [h.indices, (Reordered.plain hl).1, List.length_append, List.length_append, h.floors.length_eq]
  rfl

theorem collect_same {ls ls' : List Level} (h : List.Forall₂ Reordered ls ls') : SameMap (collect ls) (collect ls') := by
  unfold collect
  have : SameMap emptyCollector emptyCollector := ⟨rfl, .nil⟩
  revert this
  generalize emptyCollector = c
  have gen : ∀ c c' : LevelCollector, SameMap c c' → SameMap (ls.foldl addLevel c) (ls'.foldl addLevel c') := by
    induction h with
    | nil => intro c c' hc; exact hc
    | cons hl _ ih => intro c c' hc; exact ih _ _ (add_same hc hl)
  exact gen c c

theorem find_same {c c' : LevelCollector} (h : SameMap c c') (i : String) : findLevelByTransmitterId c' i = findLevelByTransmitterId c i := by
  unfold findLevelByTransmitterId
  obtain ⟨ls, is⟩ := c
  obtain ⟨ls', is'⟩ := c'
  obtain ⟨-, h⟩ := h
  dsimp only at h ⊢
  induction h with
  | nil => rfl
  | cons hl _ ih =>
    obtain ⟨h1, -, -, -, -, h6⟩ := Reordered.plain hl
    rw [List.find?_cons, List.find?_cons, h6]
    split
    · simp [h1]
    · exact ih

theorem has_same {c c' : LevelCollector} (h : SameMap c c') (id : String) : hasLevel c' id = hasLevel c id := by
  unfold hasLevel
  rw [h.indices]

theorem get_same {ls ls' : List Level} (h : List.Forall₂ Reordered ls ls') (i : ℕ) :
    (ls[i]? = none ∧ ls'[i]? = none) ∨ ∃ l l', ls[i]? = some l ∧ ls'[i]? = some l' ∧ Reordered l l' := by
  induction h generalizing i with
  | nil => left; simp
  | cons hl _ ih =>
    cases i with
    | zero => right; exact ⟨_, _, rfl, rfl, hl⟩
    | succ i => simpa using ih i

theorem level_same {c c' : LevelCollector} (h : SameMap c c') (id : String) :
    (level c id = none ∧ level c' id = none) ∨ ∃ l l', level c id = some l ∧ level c' id = some l' ∧ Reordered l l' := by
  unfold level
  rw [h.indices]
  cases StdMap.find? c.indices id with
  | none => left; exact ⟨rfl, rfl⟩
  | some i => exact get_same h.floors i

theorem supported_same {c c' : LevelCollector} (h : SameMap c c') (cs : CommonSettings) (id : String) :
    Radio.isTransmitterSupported (Radio.mkCfg c' cs) id = Radio.isTransmitterSupported (Radio.mkCfg c cs) id := by
  unfold Radio.isTransmitterSupported
  rw [show (Radio.mkCfg c' cs).levelIndex = c' from rfl, show (Radio.mkCfg c cs).levelIndex = c from rfl, find_same h]
  cases findLevelByTransmitterId c id with
  | none => rfl
  | some i =>
    dsimp only
    rw [has_same h]
    rcases level_same h i with ⟨h1, h2⟩ | ⟨l, l', h1, h2, hl⟩
    · rw [h1, h2]
    · obtain ⟨-, -, -, -, h5, h6⟩ := Reordered.plain hl
      rw [h1, h2]
      dsimp only
      rw [h5, h6]
      rfl

theorem update_same {c c' : LevelCollector} (h : SameMap c c') (cs : CommonSettings) (s : Radio.State) (m : Measurement) :
    Radio.updateMeasurements (Radio.mkCfg c' cs) s m = Radio.updateMeasurements (Radio.mkCfg c cs) s m := by
  obtain ⟨d, ts⟩ := m
  cases d with
  | radio d =>
    have hv : Radio.getValidSignalEntry (Radio.mkCfg c' cs) d = Radio.getValidSignalEntry (Radio.mkCfg c cs) d := by
      unfold Radio.getValidSignalEntry
      rw [supported_same h]
      simp only [Radio.mkCfg, find_same h]
      rfl
    unfold Radio.updateMeasurements
    dsimp only
    rw [hv]
    rfl
  | sensor d => rfl
  | nmea d => rfl

theorem withDistance_same {c c' : LevelCollector} (h : SameMap c c') (cs : CommonSettings) (e : RadioData) :
    Radio.withDistance (Radio.mkCfg c' cs) e = Radio.withDistance (Radio.mkCfg c cs) e := by
  unfold Radio.withDistance
  rw [show (Radio.mkCfg c' cs).levelIndex = c' from rfl, show (Radio.mkCfg c cs).levelIndex = c from rfl, find_same h]
  cases findLevelByTransmitterId c e.id with
  | none => rfl
  | some id =>
    dsimp only
    rcases level_same h id with ⟨h1, h2⟩ | ⟨l, l', h1, h2, hl⟩
    · rw [h1, h2]
      rfl
    · rw [h1, h2]
      dsimp only
      rw [(Reordered.plain hl).2.2.2.2.1]
      rfl

theorem extract_same {c c' : LevelCollector} (h : SameMap c c') (sorts : Radio.Sorts) (cs : CommonSettings) (s : Radio.State) (t : Int) :
    Radio.extractRadioMeasurements sorts (Radio.mkCfg c' cs) s t = Radio.extractRadioMeasurements sorts (Radio.mkCfg c cs) s t := by
  unfold Radio.extractRadioMeasurements
  dsimp only
  have hb : (Radio.mkCfg c' cs).buffer = (Radio.mkCfg c cs).buffer := rfl
  have h2 : Radio.closestAps sorts (Radio.mkCfg c' cs) = Radio.closestAps sorts (Radio.mkCfg c cs) := rfl
  rw [hb, h2, show Radio.withDistance (Radio.mkCfg c' cs) = Radio.withDistance (Radio.mkCfg c cs) from funext (withDistance_same h cs)]

theorem outdoor_same {c c' : LevelCollector} (h : SameMap c c') (s : CommonSettings) (st : Estim.OutdoorState) (ts : Int)
    (sensor : SensorMeasurement) (nmea : NmeaMeasurement) (flag : Bool) :
    Estim.outdoorPosition s c' st ts sensor nmea flag = Estim.outdoorPosition s c st ts sensor nmea flag := by
  have key : ∀ (ls ls' : List Level) st g sats, List.Forall₂ Reordered ls ls' →
      Estim.outdoorLevels s st g sats ls' = Estim.outdoorLevels s st g sats ls := by
    intro ls ls' st g sats hls
    induction hls with
    | nil => rfl
    | cons hl _ ih =>
      obtain ⟨h1, h2, h3, -⟩ := Reordered.plain hl
      unfold Estim.outdoorLevels
      rw [h1, h2, h3, ih]
  unfold Estim.outdoorPosition
  dsimp only
  cases Estim.extractGpsPosition s ts sensor with
  | none => rfl
  | some g => exact key _ _ _ g _ h.floors

theorem foldlM_same {β : Type} (f : β → Level → Option β) {ls ls' : List Level} (hls : List.Forall₂ Reordered ls ls')
    (h : ∀ b l l', Reordered l l' → f b l' = f b l) (b : β) : ls'.foldlM f b = ls.foldlM f b := by
  induction hls generalizing b with
  | nil => rfl
  | cons hl _ ih =>
    rw [List.foldlM_cons, List.foldlM_cons, h b _ _ hl]
    congr 1
    funext b'
    exact ih b'

theorem byTransmitters_same {c c' : LevelCollector} (h : SameMap c c') (p : Bool) (radio : List RadioData) :
    LevelEst.detectByTransmitters p c' radio = LevelEst.detectByTransmitters p c radio := by
  unfold LevelEst.detectByTransmitters
  congr 1
  refine foldlM_same _ h.floors (fun b l l' hl => ?_) _
  obtain ⟨rps, -, rfl⟩ := hl
  rfl

theorem params_same {c c' : LevelCollector} (h : SameMap c c') (settings : List (String × Estim.LevelSettings)) :
    Estim.zoneParams settings c' = Estim.zoneParams settings c := by
  unfold Estim.zoneParams
  refine foldlM_same _ h.floors (fun b l l' hl => ?_) _
  rw [(Reordered.plain hl).1]

theorem txPoint_same {l l' : Level} (h : Reordered l l') : Trilat.txPoint l' = Trilat.txPoint l := by
  funext i
  unfold Trilat.txPoint
  rw [(Reordered.plain h).2.2.2.2.1]

theorem altitude_same {l l' : Level} (h : Reordered l l') (sort : List RadioData → List RadioData) (solve : List Trilat.Row → XYZPoint)
    (msr : List RadioData) : Trilat.calculateAltitude sort solve l' msr = Trilat.calculateAltitude sort solve l msr := by
  have hp := txPoint_same h
  have h1 : ∀ p m ms, Trilat.pushBad l' p m ms = Trilat.pushBad l p m ms := by
    intro p m ms
    induction ms with
    | nil => rfl
    | cons a ms ih => unfold Trilat.pushBad; rw [ih, hp]
  have h2 : ∀ all ms bad, Trilat.badLoop l' all ms bad = Trilat.badLoop l all ms bad := by
    intro all ms
    induction ms with
    | nil => intro bad; rfl
    | cons a ms ih => intro bad; unfold Trilat.badLoop; simp only [ih, hp, h1]
  have h3 : ∀ x y ms acc, Trilat.altitudeSum l' x y ms acc = Trilat.altitudeSum l x y ms acc := by
    intro x y ms
    induction ms with
    | nil => intro acc; rfl
    | cons a ms ih => intro acc; unfold Trilat.altitudeSum; simp only [ih, hp]
  have hm : getLevelRadioMeasurements RadioData.id l' msr = getLevelRadioMeasurements RadioData.id l msr := by
    unfold getLevelRadioMeasurements
    rw [(Reordered.plain h).2.2.2.2.2]
  have hg : ∀ ms, Trilat.getIntersected sort l' ms = Trilat.getIntersected sort l ms := by
    intro ms
    unfold Trilat.getIntersected
    simp only [h2]
  unfold Trilat.calculateAltitude
  simp only [hm, hg, hp, h3]

theorem zone_same {l l' : Level} (h : Reordered l l') (A B : List (String × ℝ)) (ts : Int) (msr : List RadioData) :
    Estim.zonePosition A B l' ts msr = Estim.zonePosition A B l ts msr := by
  obtain ⟨rps, -, rfl⟩ := h
  rfl

theorem processed_same {l l' : Level} (h : Reordered l l') (cs : CommonSettings) (allowed : ℝ → ℝ → Prop) (s : Post.PostState)
    (p : Position) (ts motion : Int) :
    Post.getProcessedPosition cs allowed s p ts motion l' = Post.getProcessedPosition cs allowed s p ts motion l := by
  obtain ⟨-, -, h3, h4, -, -⟩ := Reordered.plain h
  have e1 : Post.isInsideMap cs p l' = Post.isInsideMap cs p l := by
    unfold Post.isInsideMap
    rw [h3]
  have e2 : Post.snapToGraph cs l' = Post.snapToGraph cs l := by
    funext q
    unfold Post.snapToGraph
    rw [h4]
  unfold Post.getProcessedPosition
  dsimp only
  rw [e2, h3, e1]

/-! ## The two clients -/

/-- Two clients of the two maps. -/
structure SameClient (c c' : Cfg) : Prop where
  env : c'.env = c.env
  cs : c'.cs = c.cs
  levels : SameMap c.levels c'.levels
  noSignal : c'.noSignal = c.noSignal
  noAction : c'.noAction = c.noAction
  detect : ∀ radio, detectLevel c' radio = detectLevel c radio
  pre : c.pre = Radio.mkCfg c.levels c.cs
  pre' : c'.pre = Radio.mkCfg c'.levels c.cs
  fusion : c'.fusion = c.fusion
  allowed : East.ReadsGeometry c.env

/-- Signals for which the two clients find the same place, on whatever floor. -/
def Agree (c c' : Cfg) (radio : List RadioData) : Prop :=
  ∀ id l l' p ts, level c.levels id = some l → level c'.levels id = some l' →
    indoorPosition c' p l' ts radio = indoorPosition c p l ts radio

section
variable {c c' : Cfg} (h : SameClient c c')
include h

theorem sense_same (s : State) (m : Measurement) : sense c' s m = sense c s m := by
  have e1 : Radio.updateMeasurements c'.pre s.pre m = Radio.updateMeasurements c.pre s.pre m := by
    rw [h.pre', h.pre, update_same h.levels c.cs s.pre m]
  have e2 : ∀ st t, Radio.extractRadioMeasurements c.env.radioSorts c'.pre st t = Radio.extractRadioMeasurements c.env.radioSorts c.pre st t := by
    intro st t
    rw [h.pre', h.pre, extract_same h.levels]
  unfold sense
  dsimp only
  rw [e1, h.fusion, h.env, h.cs]
  simp only [e2, h.detect, outdoor_same h.levels]

theorem locate_same (s : State) (x : Sensed) (hx : Agree c c' x.radio) : locate c' s x = locate c s x := by
  have ht : timedOutLevel c' x = timedOutLevel c x := by
    unfold timedOutLevel
    rw [h.noSignal, h.noAction]
  unfold locate
  dsimp only
  rw [ht, has_same h.levels]
  by_cases hl : hasLevel c.levels (timedOutLevel c x) = true
  · rw [if_pos hl, if_pos hl]
    rcases level_same h.levels (timedOutLevel c x) with ⟨h1, h2⟩ | ⟨l, l', h1, h2, hf⟩
    · rw [h1, h2]
      rfl
    · rw [h1, h2]
      change locateIndoor c' s x l' = locateIndoor c s x l
      have hi := hx _ l l' s.indoorPos x.pre.currentTs h1 h2
      have ha : c'.env.allowed l' = c.env.allowed l := by
        rw [h.env]
        exact h.allowed l' l (Reordered.plain hf).2.2.1
      unfold locateIndoor
      rw [hi, h.cs, ha]
      refine andThen_same (fun i _ => ?_)
      dsimp only
      refine andThen_same (fun hd _ => ?_)
      rw [processed_same hf]
      refine andThen_same (fun p _ => ?_)
      unfold finalAzimuth
      rw [h.cs]
  · rw [if_neg hl, if_neg hl]

theorem report_same (x : Sensed) (l : Located) : report c' x l = report c x l := by
  unfold report
  dsimp only
  split_ifs
  · rfl
  · rfl
  · rcases level_same h.levels l.state.position.levelId with ⟨h1, h2⟩ | ⟨lv, lv', h1, h2, hf⟩
    · rw [h1, h2]
      rfl
    · rw [h1, h2]
      have ha : altitudeOf c' lv' x.radio = altitudeOf c lv x.radio := by
        unfold altitudeOf
        rw [h.cs, h.env, altitude_same hf]
      simp only [orThrow, andThen]
      rw [ha, (Reordered.plain hf).2.1]
  · rfl

theorem step_same (s : State) (m : Measurement) (hx : ∀ x, sense c s m = .ok x → Agree c c' x.radio) : step c' s m = step c s m := by
  unfold step
  rw [sense_same h]
  refine andThen_same (fun x hx' => ?_)
  rw [locate_same h s x (hx x hx')]
  refine andThen_same (fun l _ => ?_)
  rw [report_same h]

end

theorem level_mem {c : LevelCollector} {id : String} {l : Level} (h : level c id = some l) : l ∈ c.levels := by
  unfold level at h
  split at h
  · cases h
  · exact List.mem_of_getElem? h

theorem usable_nil (c : LevelCollector) (id : String) : Knn.usable c id [] = [] := by
  unfold Knn.usable
  rfl

/-- **C154, clients.** Two clients with the same settings, whose maps list the reference points of each floor in different orders,
answer every batch of measurements alike: by fingerprints, with or without triangles, with floors found from fingerprints in either
mode, or by zones. If triangles are used, the reference points must be in general position and no closed window may leave two
different triangles of a floor with the largest weight. The other client can be made if the first one can. -/
theorem C154_client {ls ls' : List Level} (hr : List.Forall₂ Reordered ls ls') {c : Cfg} (hc : Client ls c)
    {sets : List (String × Estim.LevelSettings)} (hbuilt : mkCfg c.env (collect ls) c.cs sets = some c) (hp : Framed c.cs)
    (hE : StdSort Triang.Edge.lt c.env.triSorts.edges) (hT : ∀ l, (c.env.triSorts.triangles l).Perm l)
    (ha : East.ReadsGeometry c.env) (ho : ∀ l ∈ ls, Ordinary l)
    (hg : c.cs.useTriangles = true → ∀ l ∈ ls, 3 < l.radiomap.referencePoints.length → Generic l) :
    ∃ c', mkCfg c.env (collect ls') c.cs sets = some c' ∧
      ∀ (g : Garbage) (batches : List (List Measurement)), (∀ m ∈ taken batches, 0 < m.ts) →
        (c.cs.useAlgorithm = .KNN → c.cs.useTriangles = true →
          NoTiedTriangles c.env.triSorts ls c.cs (closedWindows ls c.cs (taken batches))) →
        navigateAll c' (init c' g) batches = navigateAll c (init c g) batches := by
  have hmap := collect_same hr
  have hd : Knn.DistinctLevels (collect ls) := Prints.distinct hc.map
  have hfl := hmap.floors
  have hmem : ∀ l, l ∈ (collect ls).levels ↔ l ∈ ls := fun l => by rw [Prints.collect_all]
  -- the other client
  have hpos : createPositionEstimator c.env (collect ls') c.cs sets =
      if c.cs.useAlgorithm = .KNN then some (.knn (Knn.mkCfg c.env.triSorts c.env.rpSort (collect ls') c.cs))
      else (Estim.zoneParams sets (collect ls)).map (fun ab => .zone ab.1 ab.2) := by
    unfold createPositionEstimator
    rw [params_same hmap]
  have hpos0 : createPositionEstimator c.env (collect ls) c.cs sets =
      if c.cs.useAlgorithm = .KNN then some (.knn (Knn.mkCfg c.env.triSorts c.env.rpSort (collect ls) c.cs))
      else (Estim.zoneParams sets (collect ls)).map (fun ab => .zone ab.1 ab.2) := rfl
  have hsome : ∃ i', createPositionEstimator c.env (collect ls') c.cs sets = some i' ∧
      ((c.cs.useAlgorithm = .KNN ∧ i' = .knn (Knn.mkCfg c.env.triSorts c.env.rpSort (collect ls') c.cs) ∧
        c.indoor = .knn (Knn.mkCfg c.env.triSorts c.env.rpSort (collect ls) c.cs)) ∨
       (∃ A B, i' = .zone A B ∧ c.indoor = .zone A B)) := by
    unfold mkCfg at hbuilt
    rw [hpos0] at hbuilt
    rw [hpos]
    by_cases hk : c.cs.useAlgorithm = .KNN
    · rw [if_pos hk] at hbuilt ⊢
      simp only [Option.map_some, Option.some.injEq] at hbuilt
      refine ⟨_, rfl, .inl ⟨hk, rfl, ?_⟩⟩
      rw [← hbuilt]
    · rw [if_neg hk] at hbuilt ⊢
      cases hz : Estim.zoneParams sets (collect ls) with
      | none => rw [hz] at hbuilt; cases hbuilt
      | some ab =>
        rw [hz] at hbuilt
        simp only [Option.map_some, Option.some.injEq] at hbuilt
        refine ⟨_, rfl, .inr ⟨ab.1, ab.2, rfl, ?_⟩⟩
        rw [← hbuilt]
  obtain ⟨i', hi', hcase⟩ := hsome
  unfold mkCfg
  rw [hi']
  refine ⟨_, rfl, ?_⟩
  dsimp only
  have hsame : SameClient c
      { env := c.env, cs := c.cs, levels := collect ls', noSignal := 1000 * c.cs.noSignalTimeThreshold,
        noAction := 1000 * c.cs.noActionTimeThreshold, detector := createLevelEstimator (collect ls') c.cs, indoor := i',
        pre := Radio.mkCfg (collect ls') c.cs, fusion := Fusion.fusionConfig c.cs } := by
    have hp := hc.parts
    refine ⟨rfl, rfl, ?_, ?_, ?_, ?_, ?_, rfl, ?_, ha⟩
    · rw [hp.levels]; exact hmap
    · rw [hp.noSignal]
    · rw [hp.noAction]
    · intro radio
      unfold detectLevel
      rw [hp.detector, hp.levels]
      unfold createLevelEstimator
      dsimp only
      split_ifs
      · exact Knn.C154_floor _ _ _ hfl hd (fun l hl => ho l ((hmem l).mp hl)) radio
      · exact byTransmitters_same hmap _ radio
    · rw [hp.pre, hp.levels]
    · rw [hp.fusion]
  generalize hc'eq : (
      { env := c.env, cs := c.cs, levels := collect ls', noSignal := 1000 * c.cs.noSignalTimeThreshold,
        noAction := 1000 * c.cs.noActionTimeThreshold, detector := createLevelEstimator (collect ls') c.cs, indoor := i',
        pre := Radio.mkCfg (collect ls') c.cs, fusion := Fusion.fusionConfig c.cs } : Cfg) = c' at hsame ⊢
  have hl' : c'.levels = collect ls' := by rw [← hc'eq]
  have hind : c'.indoor = i' := by rw [← hc'eq]
  clear hc'eq
  intro g batches hts hties
  rw [navigateAll_eq, navigateAll_eq]
  generalize taken batches = ms at hts hties
  have hinit : init c' g = init c g := by
    unfold init
    rw [hsame.cs]
  rw [hinit]
  induction ms using List.reverseRecOn with
  | nil => rfl
  | append_singleton ms m ih =>
    have hsub : ∀ w ∈ closedWindows ls c.cs ms, w ∈ closedWindows ls c.cs (ms ++ [m]) := by
      intro w hw
      rw [closedWindows_snoc]
      simp [hw]
    have ih := ih (fun e he => hts e (by simp [he])) (fun k1 k2 w hw => hties k1 k2 w (hsub w hw))
    rw [runs_append, runs_append, ih]
    cases hrun : runs c (init c g) ms with
    | throws => rfl
    | undefined => rfl
    | ok r =>
      obtain ⟨s, outs⟩ := r
      obtain ⟨hbuf, -⟩ := Order.buffered_runs hc hp g ms (fun e he => hts e (by simp [he])) hrun
      have hstep : step c' s m = step c s m := by
        refine step_same hsame s m (fun x hx => ?_)
        obtain ⟨-, e1, -, -⟩ := sense_parts hx
        have hx := framed_radio hc hp hbuf (hts m (by simp)) e1
        intro id l l' p ts h1 h2
        rw [hc.parts.levels] at h1
        rw [hl'] at h2
        have hre : Reordered l l' := by
          rcases level_same hmap id with ⟨k1, -⟩ | ⟨a, a', k1, k2, hre⟩
          · rw [k1] at h1; cases h1
          · rw [k1] at h1
            rw [k2] at h2
            cases h1
            cases h2
            exact hre
        have hlm := level_mem h1
        have hlm' := level_mem h2
        have hl := (hmem l).mp hlm
        unfold indoorPosition
        rw [hind]
        rcases hcase with ⟨hk, e1, e2⟩ | ⟨A, B, e1, e2⟩
        · rw [e1, e2]
          dsimp only
          rw [Knn.C154_place c.env.triSorts c.env.triSorts hE hT hE hT c.env.rpSort c.env.rpSort (collect ls) (collect ls') hfl hd
            (fun l hl => ho l ((hmem l).mp hl)) c.cs (fun hu l hl => hg hu l ((hmem l).mp hl)) l l' hlm hlm'
            (Reordered.plain hre).1 x.radio ?_ p ts]
          intro hu t u hw ht hu'
          obtain ⟨-, hx⟩ := hx
          have hw' : ∀ t, Knn.triangleWeight (Knn.calcRpWeightsKnn (Knn.levelRadiomap l) (Knn.usable (collect ls) l.id x.radio)
              c.cs.useDiffMode) (named t) = meshWeight l c.cs (Knn.usable (collect ls) l.id x.radio) t :=
            fun t => triangleWeight_eq l c.cs _ t
          rcases hx with ⟨hnil, -⟩ | ⟨hclose, d, win, hdm, had, hwin, hcl, -, hho, -⟩
          · exfalso
            rw [hnil, usable_nil] at hw
            have : Knn.triangleWeight (Knn.calcRpWeightsKnn (Knn.levelRadiomap l) [] c.cs.useDiffMode) (named t) = 0 := by
              simp [Knn.triangleWeight, Knn.calcRpWeightsKnn, Knn.rpStatistics, Knn.weightOf, StdMap.find?]
            rw [this] at hw
            norm_num at hw
          · have hcloses : Closes ls c.cs ms m := ⟨⟨d, hdm, had⟩, hclose⟩
            have hmw : (m.ts, win) ∈ closedWindows ls c.cs (ms ++ [m]) := by
              rw [closedWindows_snoc, if_pos hcloses, windows_snoc, hcl]
              simp
            refine hties hk hu _ hmw l hl _ (Prints.mapAverages_on hc.map hl hho) t ht.1 u hu'.1 ?_ ?_ ?_
            · intro v hv
              rw [← hw', ← hw']
              exact ht.2 v hv
            · intro v hv
              rw [← hw', ← hw']
              exact hu'.2 v hv
            · rw [← hw']
              exact hw
        · rw [e1, e2]
          dsimp only
          rw [zone_same hre]
      simp only [andThen, runs, hstep]

end Verif.RefOrder
