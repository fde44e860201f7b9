import Verif.Tool.TrackProps
import Verif.JsonIn.SettingsProps

/-!
# C106: with good files the replay program finishes
-/

namespace Verif.Tool

open Verif.Levels
open Verif.Knn (Result)
open Verif.Nav
open Verif.Geo (GeoPoint)
open Verif.MapLoad (Feature FileLevel Entry)
open Verif.JsonIn (Json)

/-! ## Specification -/

/-- Every transmitter of a reference point was measured. -/
def Measured : Feature → Prop
  | .refPoint _ _ _ entries => ∀ e ∈ entries, e.values ≠ [] ∧ ∀ v ∈ e.values, 0 < v.2
  | _ => True

/-- The features of a map file: well-formed (C85), level names are not empty, fingerprints have measurements. -/
structure GoodFeatures (fs : List Feature) : Prop where
  wellFormed : ∀ f ∈ fs, MapLoad.WellFormed f
  named : ∀ id polys, Feature.level id polys ∈ fs → id ≠ ""
  measured : ∀ f ∈ fs, Measured f

/-- The libraries do what they promise. -/
structure GoodWorld (w : World) : Prop where
  order : ∀ m, (w.order m).Perm m
  sort : SortsBy (fun a b : RadioData => a.distance < b.distance) w.env.distanceSort
  radioSorts : w.env.radioSorts.Lawful

/-- The settings fit the map: they avoid the undefined behaviours of C34 and C47, and the zone algorithm has
parameters for every level of the map. -/
structure FitSettings (fs : List Feature) (s : JsonIn.NavigationSettings) : Prop where
  good : GoodSettings s.common
  levels : s.common.useAlgorithm ≠ .KNN → ∀ id polys, Feature.level id polys ∈ fs → (StdMap.find? s.levels id).isSome

/-! ## Graphs of a file are built by adding vertices and edges -/

/-- The graph is the result of some calls. -/
def Built {P : Type} (g : NavGraph.Graph P) : Prop := ∃ ops, g = NavGraph.run ops

theorem Built.addVertex {P : Type} {g : NavGraph.Graph P} (h : Built g) (p : P) : Built (NavGraph.addVertex g p).1 := by
  obtain ⟨ops, rfl⟩ := h
  refine ⟨ops ++ [.addVertex p], ?_⟩
  unfold NavGraph.run
  rw [List.foldl_append]
  rfl

theorem Built.addEdge {P : Type} {g g' : NavGraph.Graph P} (h : Built g) {a b : Int} (he : NavGraph.addEdge g a b = .ok g') :
    Built g' := by
  obtain ⟨ops, rfl⟩ := h
  refine ⟨ops ++ [.addEdge a b], ?_⟩
  unfold NavGraph.run
  rw [List.foldl_append]
  change g' = NavGraph.step (NavGraph.run ops) (.addEdge a b)
  simp only [NavGraph.step]
  rw [he]

theorem addNeighbour_built {vm : List (Int × GeoPoint)} {id1 : Int} {b b' : MapLoad.Build} {v : Int}
    (h : Built b.graph) (hb : MapLoad.addNeighbour vm id1 b v = .ok b') : Built b'.graph := by
  unfold MapLoad.addNeighbour at hb
  cases hf : StdMap.find? b.added v with
  | none =>
    rw [hf] at hb
    dsimp only at hb
    cases he : NavGraph.addEdge (NavGraph.addVertex b.graph (MapLoad.pointOf vm v)).1 id1
        (NavGraph.addVertex b.graph (MapLoad.pointOf vm v)).2.id with
    | error e => rw [he] at hb; cases hb
    | ok g => rw [he] at hb; cases hb; exact (h.addVertex _).addEdge he
  | some x =>
    rw [hf] at hb
    dsimp only at hb
    cases he : NavGraph.addEdge b.graph id1 x.id with
    | error e => rw [he] at hb; cases hb
    | ok g => rw [he] at hb; cases hb; exact h.addEdge he

theorem addNeighbours_built {vm : List (Int × GeoPoint)} {id1 : Int} {vs : List Int} {b b' : MapLoad.Build}
    (h : Built b.graph) (hb : MapLoad.addNeighbours vm id1 b vs = .ok b') : Built b'.graph := by
  induction vs generalizing b with
  | nil => simp only [MapLoad.addNeighbours, Except.ok.injEq] at hb; rw [← hb]; exact h
  | cons v vs ih =>
    simp only [MapLoad.addNeighbours] at hb
    cases he : MapLoad.addNeighbour vm id1 b v with
    | error e => rw [he] at hb; cases hb
    | ok b1 => rw [he] at hb; exact ih (addNeighbour_built h he) hb

theorem buildGraph_built {vm : List (Int × GeoPoint)} {adj : List (Int × List Int)} {b b' : MapLoad.Build}
    (h : Built b.graph) (hb : MapLoad.buildGraph vm b adj = .ok b') : Built b'.graph := by
  induction adj generalizing b with
  | nil => simp only [MapLoad.buildGraph, Except.ok.injEq] at hb; rw [← hb]; exact h
  | cons e adj ih =>
    obtain ⟨v1, vs⟩ := e
    simp only [MapLoad.buildGraph] at hb
    cases he : MapLoad.addNeighbours vm (NavGraph.addVertex b.graph (MapLoad.pointOf vm v1)).2.id
        ⟨(NavGraph.addVertex b.graph (MapLoad.pointOf vm v1)).1,
          StdMap.insert b.added v1 (NavGraph.addVertex b.graph (MapLoad.pointOf vm v1)).2⟩ vs with
    | error e => rw [he] at hb; cases hb
    | ok b1 => rw [he] at hb; exact ih (addNeighbours_built (h.addVertex _) he) hb

theorem parseGraph_built {order : List (Int × GeoPoint) → List (Int × GeoPoint)} {lines : List (List (List ℝ))}
    {g : NavGraph.Graph GeoPoint} (h : MapLoad.parseGraph order lines = .ok g) : Built g := by
  unfold MapLoad.parseGraph at h
  cases hr : MapLoad.readLines lines with
  | none => rw [hr] at h; cases h
  | some ls =>
    rw [hr] at h
    dsimp only at h
    cases ha : MapLoad.adjacency (order (MapLoad.vertexMap ls.flatten)) [] ls with
    | throws => rw [ha] at h; cases h
    | undefined => rw [ha] at h; cases h
    | ok adj =>
      rw [ha] at h
      dsimp only at h
      cases hb : MapLoad.buildGraph (MapLoad.vertexMap ls.flatten) ⟨NavGraph.empty, []⟩ adj with
      | error e => rw [hb] at h; cases h
      | ok b =>
        rw [hb] at h
        cases h
        exact buildGraph_built (b := ⟨NavGraph.empty, []⟩) ⟨[], rfl⟩ hb

/-! ## Fingerprints have a mean -/

theorem mapM_some {α β : Type} (f : α → Option β) (l : List α) (h : ∀ a ∈ l, ∃ b, f a = some b) : ∃ m, l.mapM f = some m := by
  induction l with
  | nil => exact ⟨[], rfl⟩
  | cons a l ih =>
    obtain ⟨b, hb⟩ := h a (by simp)
    obtain ⟨m, hm⟩ := ih (fun x hx => h x (by simp [hx]))
    exact ⟨b :: m, by rw [List.mapM_cons, hb, hm]; rfl⟩

theorem count_pos (d : List (Int × ℕ)) (h : ∃ v ∈ d, 0 < v.2) : d.foldl (fun n v => n + v.2) 0 ≠ 0 := by
  have key : ∀ (d : List (Int × ℕ)) (n : ℕ), n ≤ d.foldl (fun n v => n + v.2) n ∧
      ((∃ v ∈ d, 0 < v.2) → n < d.foldl (fun n v => n + v.2) n) := by
    intro d
    induction d with
    | nil => intro n; simp
    | cons v d ih =>
      intro n
      rw [List.foldl_cons]
      obtain ⟨h1, h2⟩ := ih (n + v.2)
      refine ⟨by omega, ?_⟩
      rintro ⟨x, hx, hp⟩
      rcases List.mem_cons.mp hx with rfl | hx
      · omega
      · have := h2 ⟨x, hx, hp⟩
        omega
  have := (key d 0).2 h
  omega

theorem insertSorted_mem {K V : Type} [LinearOrder K] (m : List (K × V)) (k : K) (v : V) (e : K × V) :
    e ∈ StdMap.insertSorted k v m ↔ e = (k, v) ∨ e ∈ m := by
  induction m with
  | nil => simp [StdMap.insertSorted]
  | cons x m ih =>
    obtain ⟨k', v'⟩ := x
    unfold StdMap.insertSorted
    split_ifs
    · simp
    · rw [List.mem_cons, ih, List.mem_cons]
      tauto

theorem insert_mem {K V : Type} [LinearOrder K] {m : List (K × V)} {k : K} {v : V} {e : K × V} (he : e ∈ StdMap.insert m k v) :
    e = (k, v) ∨ e ∈ m := by
  unfold StdMap.insert at he
  split_ifs at he
  · exact Or.inr he
  · exact (insertSorted_mem m k v e).mp he

theorem foldl_insert_mem {A K V : Type} [LinearOrder K] (f : A → K × V) (l : List A) (m : List (K × V)) (e : K × V)
    (he : e ∈ l.foldl (fun m a => StdMap.insert m (f a).1 (f a).2) m) : e ∈ m ∨ ∃ a ∈ l, e = f a := by
  induction l generalizing m with
  | nil => exact Or.inl he
  | cons a l ih =>
    rw [List.foldl_cons] at he
    rcases ih _ he with h | ⟨b, hb, h⟩
    · rcases insert_mem h with h | h
      · exact Or.inr ⟨a, by simp, h⟩
      · exact Or.inl h
    · exact Or.inr ⟨b, by simp [hb], h⟩

theorem distribution_ne (vs : List (Int × ℕ)) (h : vs ≠ []) : MapLoad.distribution vs ≠ [] := by
  have key : ∀ (vs m : List (Int × ℕ)), m ≠ [] ∨ vs ≠ [] → vs.foldl (fun m v => StdMap.insert m v.1 v.2) m ≠ [] := by
    intro vs
    induction vs with
    | nil => intro m hm; simpa using hm
    | cons v vs ih =>
      intro m _
      rw [List.foldl_cons]
      refine ih _ (Or.inl ?_)
      intro hn
      have := StdMap.find?_insert m v.1 v.1 v.2
      rw [hn] at this
      simp at this
  exact key vs [] (Or.inr h)

theorem measured_mean (e : Entry) (h1 : e.values ≠ []) (h2 : ∀ v ∈ e.values, 0 < v.2) : ∃ s, toStats (MapLoad.entryStats e) = some s := by
  have hn : (MapLoad.distribution e.values).foldl (fun n v => n + v.2) 0 ≠ 0 := by
    apply count_pos
    cases hd : MapLoad.distribution e.values with
    | nil => exact absurd hd (distribution_ne _ h1)
    | cons v d =>
      refine ⟨v, by simp, ?_⟩
      have hm : v ∈ MapLoad.distribution e.values := by rw [hd]; simp
      rcases foldl_insert_mem (fun v : Int × ℕ => v) e.values [] v hm with h | ⟨a, ha, rfl⟩
      · cases h
      · exact h2 _ ha
  unfold toStats MapLoad.entryStats
  dsimp only
  rw [if_neg hn]
  exact ⟨_, rfl⟩

theorem measured_level {w : World} {fs : List Feature} {ls : List FileLevel} (hg : GoodFeatures fs)
    (hp : MapLoad.parseGeojson w.bg w.envelope w.order fs = .ok ls) : ∃ gs, ls.mapM toGeoLevel = some gs := by
  apply mapM_some
  intro l hl
  obtain ⟨-, -, -, hrp, -⟩ := MapLoad.C85_content w.bg w.envelope w.order fs ls hp l hl
  have : ∃ rps, l.referencePoints.mapM toRefPoint = some rps := by
    apply mapM_some
    intro r hr
    rw [hrp] at hr
    obtain ⟨f, hf, hfr⟩ := List.mem_filterMap.mp hr
    have hm := hg.measured f hf
    cases f with
    | level _ _ => cases hfr
    | graph _ _ => cases hfr
    | transmitter _ _ _ _ _ _ => cases hfr
    | other => cases hfr
    | refPoint lv uuid coords entries =>
      simp only [MapLoad.refPointOf] at hfr
      split_ifs at hfr
      unfold MapLoad.parseReferencePoint at hfr
      cases hpt : MapLoad.toPoint coords with
      | none => rw [hpt] at hfr; cases hfr
      | some p =>
        rw [hpt] at hfr
        cases hfr
        unfold toRefPoint
        obtain ⟨f, hf⟩ := mapM_some (fun e : String × MapLoad.FileStats => (toStats e.2).map (fun s => (e.1, s)))
          (entries.foldl (fun m e => StdMap.insert m e.bssid (MapLoad.entryStats e)) []) (by
            intro e he
            rcases foldl_insert_mem (fun e : Entry => (e.bssid, MapLoad.entryStats e)) entries [] e he with h | ⟨a, ha, rfl⟩
            · cases h
            · obtain ⟨s, hs⟩ := measured_mean a (hm a ha).1 (hm a ha).2
              exact ⟨_, by rw [hs]; rfl⟩)
        dsimp only
        rw [hf]
        exact ⟨_, rfl⟩
  obtain ⟨rps, h⟩ := this
  unfold toGeoLevel
  rw [h]
  exact ⟨_, rfl⟩

theorem toGeoLevel_same {l : FileLevel} {g : GeoLevel} (h : toGeoLevel l = some g) : g.id = l.id ∧ g.graph = l.graph := by
  unfold toGeoLevel at h
  cases hm : l.referencePoints.mapM toRefPoint with
  | none => rw [hm] at h; cases h
  | some r => rw [hm] at h; cases h; exact ⟨rfl, rfl⟩

/-! ## The client -/

/-- Good files give a client for the levels of the map. -/
theorem builds {w : World} (hw : GoodWorld w) {files : Files} {fs : List Feature} (hfs : files.map = some fs)
    (hg : GoodFeatures fs) {s : JsonIn.NavigationSettings} (hs : JsonIn.createSettingsFromJson files.settings = .ok (s, 0))
    (hfit : FitSettings fs s) :
    ∃ c ls, BuiltFrom w files c ∧ Client ls c ∧ ∀ id, (∃ l ∈ ls, l.id = id) ↔ ∃ polys, Feature.level id polys ∈ fs := by
  obtain ⟨fls, hp⟩ := MapLoad.C85_total w.bg w.envelope w.order hw.order fs hg.wellFormed
  obtain ⟨hsorted, hids⟩ := MapLoad.C85_levels w.bg w.envelope w.order fs fls hp
  obtain ⟨gs, hgs⟩ := measured_level (w := w) hg hp
  have hall := MapLoad.mapM_forall₂ _ _ _ hgs
  have hid : gs.map GeoLevel.id = fls.map FileLevel.id := by
    clear hgs hp hids hsorted
    induction hall with
    | nil => rfl
    | cons h _ ih => rw [List.map_cons, List.map_cons, ih, (toGeoLevel_same h).1]
  have hnd : (gs.map GeoLevel.id).Nodup := by
    rw [hid]
    unfold List.Nodup
    rw [List.pairwise_map]
    exact hsorted.imp (fun h => ne_of_lt h)
  have hne : ∀ g ∈ gs, g.id ≠ "" := by
    intro g hg'
    have : g.id ∈ fls.map FileLevel.id := by rw [← hid]; exact List.mem_map_of_mem hg'
    obtain ⟨l, hl, he⟩ := List.mem_map.mp this
    obtain ⟨polys, hpl⟩ := (hids g.id).mp ⟨l, hl, he⟩
    exact hg.named _ _ hpl
  have hgr : ∀ g ∈ gs, ∃ ops, g.graph = NavGraph.run ops := by
    intro g hg'
    obtain ⟨l, hl, he⟩ : ∃ l ∈ fls, toGeoLevel l = some g := by
      clear hgs hp hids hsorted hid hnd hne
      induction hall with
      | nil => cases hg'
      | cons h _ ih =>
        rcases List.mem_cons.mp hg' with rfl | hg'
        · exact ⟨_, by simp, h⟩
        · obtain ⟨l, hl, he⟩ := ih hg'
          exact ⟨l, by simp [hl], he⟩
    rw [(toGeoLevel_same he).2]
    obtain ⟨-, hgraph, -⟩ := MapLoad.C85_content w.bg w.envelope w.order fs fls hp l hl
    cases hlines : fs.findSome? (MapLoad.linesOf l.id) with
    | none => rw [hlines] at hgraph; exact ⟨[], hgraph⟩
    | some lines => rw [hlines] at hgraph; exact parseGraph_built hgraph
  obtain ⟨ls, h1, h2, h3⟩ := good_map w.bg gs hnd hne hgr
  have hlv : ∀ id, (∃ l ∈ ls, l.id = id) ↔ ∃ polys, Feature.level id polys ∈ fs := by
    intro id
    rw [← hids id]
    have ha : (∃ l ∈ ls, l.id = id) ↔ id ∈ ls.map Level.id := by simp
    have hb : (∃ l ∈ fls, l.id = id) ↔ id ∈ fls.map FileLevel.id := by simp
    rw [ha, hb, h3, hid]
  obtain ⟨c, hc⟩ : ∃ c, mkCfg w.env (collect ls) s.common s.levels = some c := by
    unfold mkCfg createPositionEstimator
    split_ifs with hk
    · exact ⟨_, rfl⟩
    · have hz : ∃ ab, Estim.zoneParams s.levels (collect ls) = some ab := by
        unfold Estim.zoneParams
        have hset : ∀ l ∈ ls, (StdMap.find? s.levels l.id).isSome := by
          intro l hl
          obtain ⟨polys, hpl⟩ := (hlv l.id).mp ⟨l, hl, rfl⟩
          exact hfit.levels hk _ _ hpl
        rw [collect_levels]
        generalize (([], []) : List (String × ℝ) × List (String × ℝ)) = ab
        clear h1 h2 h3 hlv
        induction ls generalizing ab with
        | nil => exact ⟨ab, rfl⟩
        | cons l ls ih =>
          obtain ⟨st, hst⟩ := Option.isSome_iff_exists.mp (hset l (by simp))
          rw [List.foldlM_cons, hst]
          exact ih (fun l hl => hset l (by simp [hl])) _
      obtain ⟨ab, hab⟩ := hz
      rw [hab]
      exact ⟨_, rfl⟩
  have he : c.env = w.env ∧ c.cs = s.common := by
    unfold mkCfg at hc
    cases hi : createPositionEstimator w.env (collect ls) s.common s.levels with
    | none => rw [hi] at hc; cases hc
    | some i => rw [hi, Option.map_some, Option.some.injEq] at hc; rw [← hc]; exact ⟨rfl, rfl⟩
  exact ⟨c, ls, ⟨fs, fls, s, gs, collect ls, hfs, hp, hs, hgs, h1, hc⟩,
    ⟨h2, by rw [he.2]; exact hfit.good, by rw [he.1]; exact hw.sort, by rw [he.1]; exact hw.radioSorts,
      s.levels, by rw [he.1, he.2]; exact hc⟩, hlv⟩

theorem printOutputs_total (h : ℝ) (first : Int) (t : Track) (ms : List Measurement) (os : List (Output × DebugState))
    (hl : os.length ≤ ms.length) : ∃ r, printOutputs h first t ms os = .ok r := by
  obtain ⟨t', ls, h1, -⟩ := printOutputs_ok h first t ms os hl
  exact ⟨_, h1⟩

theorem records_length (ms : List Measurement) : (records ms).length ≤ ms.length := by
  unfold records
  rw [List.length_map]
  refine (List.length_filter_le _ _).trans ?_
  simp

theorem runBatches_total (h : ℝ) (c : Cfg) (s s' : State) (first : Int) (t : Track) (bs : List (List Measurement))
    (hne : ∀ b ∈ bs, b ≠ []) (outs : List (Output × DebugState)) (hn : navigateAll c s bs = .ok (s', outs)) :
    ∃ lines, runBatches h c s first t bs = .ok lines := by
  induction bs generalizing s first t outs with
  | nil => exact ⟨[], by simp [runBatches]⟩
  | cons b bs ih =>
    cases b with
    | nil => exact absurd rfl (hne [] (by simp))
    | cons m ms =>
      simp only [navigateAll] at hn
      obtain ⟨⟨s1, outs1⟩, h1, h2⟩ := andThen_ok hn
      obtain ⟨⟨s2, outs2⟩, h3, h4⟩ := andThen_ok h2
      have hlen : outs1.length ≤ (m :: ms).length := by
        rw [navigate_eq] at h1
        rw [runs_length c _ _ _ _ h1]
        exact records_length _
      simp only [runBatches]
      rw [h1]
      simp only [andThen]
      obtain ⟨r, hr⟩ := printOutputs_total h (if first = 0 then m.ts else first) t (m :: ms) outs1 hlen
      rw [hr]
      obtain ⟨lines, hls⟩ := ih s1 (if first = 0 then m.ts else first) r.1 (fun b hb => hne b (by simp [hb])) outs2 (by cases h4; exact h3)
      dsimp only
      rw [hls]
      exact ⟨_, rfl⟩

/-- **C106.** With a good map file, settings that fit it, a log whose lines can be read and a batch size other than 0,
the program returns 0 whatever the messages are: no exception, no undefined behaviour, no endless loop.  Every line has
status OK and names a level of the map file, or has an error status and no place.  No more lines are printed than there
are messages, and exactly one per message if the log is in time order. -/
theorem C106_finishes (w : World) (hw : GoodWorld w) (files : Files) (fs : List Feature) (hfs : files.map = some fs)
    (hg : GoodFeatures fs) (s : JsonIn.NavigationSettings) (hs : JsonIn.createSettingsFromJson files.settings = .ok (s, 0))
    (hfit : FitSettings fs s) (ms : List Measurement) (hms : JsonIn.getNavMessages files.log = .ok ms) (n : Int) (hn : n ≠ 0) :
    ∃ lines, main w files n = .returns 0 lines ∧ lines.length ≤ ms.length ∧ (Ordered ms → lines.length = ms.length) ∧
      ∀ l ∈ lines, (l.status = .OK ∧ (∃ polys, Feature.level l.level polys ∈ fs) ∧
          ∃ a, l.orientation = some a ∧ -Real.pi ≤ a ∧ a < Real.pi) ∨
        ((l.status = .NAVIGATION_ERROR ∨ l.status = .NO_SOLUTION ∨ l.status = .NO_LEVEL) ∧ l.level = "" ∧
          l.latitude = 0 ∧ l.longitude = 0) := by
  obtain ⟨c, ls, hb, hc, hlv⟩ := builds hw hfs hg hs hfit
  obtain ⟨bs, h1, h2, h3, -⟩ := (C105_batches n ms).1 hn
  obtain ⟨s', outs, h4, h5⟩ := C79_total hc w.garbage bs
  obtain ⟨lines, h6⟩ := runBatches_total w.heading c (init c w.garbage) s' 0 Track.start bs h3 outs h4
  obtain ⟨s'', outs', h7, h8⟩ := runBatches_prints h6
  rw [h4] at h7
  cases h7
  have htaken : ∀ bs : List (List Measurement), (taken bs).length ≤ bs.flatten.length := by
    intro bs
    unfold taken
    induction bs with
    | nil => simp
    | cons b bs ih =>
      rw [List.flatMap_cons, List.flatten_cons, List.length_append, List.length_append]
      have := records_length b
      omega
  refine ⟨lines, ?_, ?_, ?_, ?_⟩
  · rw [main_built hb, hms]
    dsimp only [Outcome.of]
    rw [h1]
    dsimp only
    rw [h6]
  · rw [h8.length, h5, ← h2]
    exact htaken bs
  · intro ho
    rw [h8.length, h5]
    have : taken bs = ms := by
      rw [← h2] at ho ⊢
      clear h1 h2 h4 h6 h8 h5
      unfold taken
      induction bs with
      | nil => rfl
      | cons b bs ih =>
        rw [List.flatten_cons] at ho
        obtain ⟨ho1, ho2, -⟩ := List.pairwise_append.mp ho
        rw [List.flatMap_cons, List.flatten_cons, records_ordered b ho1, ih (fun b hb => h3 b (by simp [hb])) ho2]
    rw [this]
  · intro l hl
    obtain ⟨i, hi⟩ := List.mem_iff_getElem?.mp hl
    obtain ⟨o, ho, ⟨e1, e2, e3, e4, e5, e6⟩, -⟩ := h8.get i l hi
    rcases (C63_outputs hc w.garbage bs h4).1 o (List.mem_of_getElem? ho) with ⟨hok, lv, hlvm, p, r, a, pr, k1, k2, k3, k4, k5, k6, k7, k8⟩ | ⟨herr, hbl⟩
    · left
      refine ⟨by rw [e6, hok], ?_, a, by rw [e4, k4], k5, k6⟩
      rw [e5]
      exact (hlv o.1.posLevel).mp ⟨lv, hlvm, k1.symm⟩
    · right
      rw [e6, e5, e1, e2]
      exact ⟨herr, hbl.1, hbl.2.1, hbl.2.2.1⟩

/-! ## An example -/

/-- A map with one level, a transmitter, a reference point and a graph of one edge. -/
noncomputable def exFeatures : List Feature :=
  [.level "0" [[[[30, 60], [30.001, 60], [30.001, 60.001], [30, 60]]]],
   .transmitter "0" "(1,2,u)" none none .BEACON [30, 60],
   .refPoint "0" "r" [30, 60] [⟨"(1,2,u)", .BEACON, [(70, 3), (72, 1)]⟩],
   .graph "0" [[[30, 60], [30.0005, 60.0005]]]]

/-- A settings file with parameters for the level. -/
noncomputable def exSettings : Json := .obj
  [("common_settings", .arr [.obj []]),
   ("level_settings", .arr [.obj [("level", .str "0"), ("settings", .arr [.obj [("A", .int (-70))]])]])]

/-- A log of three messages, of a sensor, a beacon and the satellite receiver. -/
noncomputable def exLog : List (Option Json) :=
  [some (.obj [("timestamp", .int 5), ("type", .int 101), ("values", .arr [.int 0, .real (1 / 2), .real (49 / 5)])]),
   some (.obj [("bssid", .str "(1,2,u)"), ("note", .null), ("rssi", .int (-70)), ("timestamp", .int 6), ("type", .int 203)]),
   some (.obj [("num_sats", .int 9), ("sentence_number", .int 3), ("timestamp", .int 7), ("type", .int 300)])]

/-- The messages of the log. -/
noncomputable def exMessages : List Measurement :=
  [⟨.sensor ⟨.ACCELEROMETER, ⟨0, 1 / 2, 49 / 5⟩⟩, 5⟩, ⟨.radio ⟨.BEACON, "(1,2,u)", -70, 0, 0, 0⟩, 6⟩, ⟨.nmea ⟨3, 9⟩, 7⟩]

theorem exLog_read : JsonIn.getNavMessages exLog = .ok exMessages := by
  apply JsonIn.C87_log
  · refine .cons ⟨_, rfl, _, rfl, by simp [StdMap.find?], by norm_num, by norm_num, ?_⟩
      (.cons ⟨_, rfl, _, rfl, by simp [StdMap.find?], by norm_num, by norm_num, ?_⟩
      (.cons ⟨_, rfl, _, rfl, by simp [StdMap.find?], by norm_num, by norm_num, ?_⟩ .nil))
    · refine ⟨by simp [StdMap.find?, JsonIn.sensorCode], _, _, _, by simp only [StdMap.find?]; rfl, .inl ⟨0, rfl, by simp⟩, .inr rfl, .inr rfl⟩
    · refine ⟨by simp [StdMap.find?, JsonIn.radioCode], by simp [StdMap.find?],
        .inl ⟨.int (-70), by simp [StdMap.find?], .inl ⟨-70, rfl, by norm_num⟩⟩,
        .inr ⟨by simp [StdMap.find?], rfl⟩, rfl, rfl⟩
    · refine ⟨by simp [StdMap.find?], by simp [StdMap.find?], by simp [StdMap.find?], ?_⟩
      norm_num
  · rintro m hm ⟨d, h1, h2⟩
    simp only [exMessages, List.mem_cons, List.not_mem_nil, or_false] at hm
    rcases hm with rfl | rfl | rfl <;> simp at h1
    subst h1
    simp at h2

theorem exFeatures_good : GoodFeatures exFeatures := by
  constructor
  · intro f hf
    simp only [exFeatures, List.mem_cons, List.not_mem_nil, or_false] at hf
    rcases hf with rfl | rfl | rfl | rfl <;> simp [MapLoad.WellFormed]
  · intro id polys h
    simp only [exFeatures, List.mem_cons, List.not_mem_nil, or_false, Feature.level.injEq, reduceCtorEq] at h
    rw [h.1]
    decide
  · intro f hf
    simp only [exFeatures, List.mem_cons, List.not_mem_nil, or_false] at hf
    rcases hf with rfl | rfl | rfl | rfl <;> simp [Measured]
    rintro a b (⟨-, rfl⟩ | ⟨-, rfl⟩) <;> norm_num

theorem exSettings_fit : ∃ s, JsonIn.createSettingsFromJson (some (some exSettings)) = .ok (s, 0) ∧ FitSettings exFeatures s := by
  obtain ⟨s, h1, h2, h3⟩ := JsonIn.C89_file (es := [("0", [("A", .int (-70))])])
    (top := [("common_settings", .arr [.obj []]),
      ("level_settings", .arr [.obj [("level", .str "0"), ("settings", .arr [.obj [("A", .int (-70))]])]])])
    (by simp only [StdMap.find?]; rfl)
    (.cons ⟨_, _, rfl, by simp [StdMap.find?], by simp only [StdMap.find?]; rfl⟩ .nil)
    (by
      intro e he
      simp only [List.mem_cons, List.not_mem_nil, or_false] at he
      rw [he]
      exact .cons (by simp) .nil)
    (by simp only [StdMap.find?]; rfl) (cs := {}) rfl
  refine ⟨s, h1, ⟨⟨fun h => ?_, fun h => ?_⟩, fun _ id polys h => ?_⟩⟩
  · rw [h2] at h; cases h
  · rw [h2] at h; cases h
  · simp only [exFeatures, List.mem_cons, List.not_mem_nil, or_false, Feature.level.injEq, reduceCtorEq] at h
    have := h3 "0"
    simp only [List.reverse_cons, List.reverse_nil, List.nil_append, List.find?_cons, decide_true] at this
    obtain ⟨ls, hls, -⟩ := this
    rw [h.1, hls]
    rfl

/-- **C105, C106, C107** are about possible runs: with these files, in every lawful world, the program prints three
lines for every batch size but 0, whose times are 0. -/
example (w : World) (hw : GoodWorld w) (n : Int) (hn : n ≠ 0) :
    ∃ l1 l2 l3, main w ⟨some exFeatures, some (some exSettings), exLog⟩ n = .returns 0 [l1, l2, l3] ∧ l3.time = 0 := by
  obtain ⟨s, h1, h2⟩ := exSettings_fit
  have hord : Ordered exMessages := by simp [Ordered, exMessages]
  obtain ⟨lines, h3, -, h4, -⟩ := C106_finishes w hw ⟨some exFeatures, some (some exSettings), exLog⟩ _ rfl exFeatures_good s h1 h2
    exMessages exLog_read n hn
  obtain ⟨c, s', outs, -, -, -, -, h5⟩ := C105_lines w _ exMessages exLog_read
    ⟨hord, by intro m hm; simp only [exMessages, List.head?_cons, Option.some.injEq] at hm; rw [← hm]; norm_num⟩ n lines h3
  obtain ⟨l, o, h6, -, -, h7, h8⟩ := h5 2 _ _ rfl rfl
  match lines, h4 hord, h6 with
  | [l1, l2, l3], _, h6 =>
    simp only [List.getElem?_cons_succ, List.getElem?_cons_zero, Option.some.injEq] at h6
    subst h6
    refine ⟨l1, l2, _, h3, ?_⟩
    dsimp only at h7 h8
    omega

/-- A lawful world exists. -/
noncomputable def exWorld : World where
  bg := ⟨fun _ _ => true, fun _ _ => false, id, id, id, fun _ => ⟨⟨0, 0⟩, ⟨0, 0⟩⟩, fun _ _ => false, fun _ _ => []⟩
  envelope := fun _ => ⟨⟨0, 0⟩, ⟨0, 0⟩⟩
  order := id
  env := exEnv
  garbage := exMemory .ACCELEROMETER
  heading := 1

example : GoodWorld exWorld := ⟨fun m => List.Perm.refl m, sortsBy_insertionSort _, Radio.insertionSorts_lawful⟩

end Verif.Tool
