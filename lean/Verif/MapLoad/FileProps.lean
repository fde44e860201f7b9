import Verif.MapLoad.FileModel
import Verif.MapLoad.Props
import Mathlib.Tactic

/-!
# C85, C86: what a map file becomes
-/

namespace Verif.MapLoad

open Verif.Geo (GeoPoint XYPoint)
open Verif.NavGraph (Graph)
open Verif.Knn (Result)
open Verif.Levels

/-! ## Specification: reading a level's data off the feature list -/

/-- The area of a feature that describes the level `id`. -/
def areaOf (id : String) : Feature → Option (List Polygon)
  | .level l polys => if l = id then parseLevel polys else none
  | _ => none

/-- The lines of a feature that is a graph of the level `id`. -/
def linesOf (id : String) : Feature → Option (List (List (List ℝ)))
  | .graph l lines => if l = id then some lines else none
  | _ => none

/-- The transmitter of a feature that is a transmitter of the level `id`. -/
noncomputable def transmitterOf (id : String) : Feature → Option (Transmitter GeoPoint3D)
  | .transmitter l uuid A B type coords => if l = id then parseTransmitter uuid A B type coords else none
  | _ => none

/-- The reference point of a feature that is a reference point of the level `id`. -/
noncomputable def refPointOf (id : String) : Feature → Option FileRefPoint
  | .refPoint l uuid coords entries => if l = id then parseReferencePoint uuid coords entries else none
  | _ => none

/-! ## The loops -/

theorem readLevels_spec (fs : List Feature) (m m' : List (String × List Polygon))
    (hs : StdMap.Sorted m) (h : readLevels m fs = some m') :
    StdMap.Sorted m' ∧ ∀ id, StdMap.find? m' id =
      (StdMap.find? m id).or (fs.findSome? (areaOf id)) := by
  induction fs generalizing m with
  | nil =>
    simp only [readLevels] at h; cases h
    exact ⟨hs, fun id => by simp⟩
  | cons f fs ih =>
    cases f with
    | level l polys =>
      simp only [readLevels] at h
      cases hp : parseLevel polys with
      | none => rw [hp] at h; cases h
      | some p =>
        rw [hp] at h
        obtain ⟨h1, h2⟩ := ih _ (StdMap.insert_sorted _ _ _ hs) h
        refine ⟨h1, fun id => ?_⟩
        rw [h2, StdMap.find?_insert]
        simp only [List.findSome?_cons, areaOf, hp]
        by_cases hl : l = id
        · subst hl
          rw [if_pos rfl, if_pos rfl]
          cases StdMap.find? m l <;> simp
        · rw [if_neg hl, if_neg hl]
    | graph _ _ => exact ih m hs h
    | transmitter _ _ _ _ _ _ => exact ih m hs h
    | refPoint _ _ _ _ => exact ih m hs h
    | other => exact ih m hs h

theorem find?_pushBack {V : Type} (m : List (String × List V)) (k k' : String) (v : V) :
    (StdMap.find? (pushBack m k v) k').getD [] =
      (StdMap.find? m k').getD [] ++ if k = k' then [v] else [] := by
  unfold pushBack
  rw [StdMap.find?_set]
  by_cases h : k = k'
  · subst h; simp
  · simp [h]

/-- The graph a list of features gives the level `id`, if the parsing of graphs succeeds. -/
noncomputable def graphOf (order : List (Int × GeoPoint) → List (Int × GeoPoint)) (id : String)
    (f : Feature) : Option (Graph GeoPoint) :=
  match linesOf id f with
  | some lines => match parseGraph order lines with
    | .ok g => some g
    | _ => none
  | none => none

theorem readFeatures_spec (order : List (Int × GeoPoint) → List (Int × GeoPoint)) (fs : List Feature)
    (t t' : Tables) (h : readFeatures order t fs = .ok t') :
    ∀ id, StdMap.find? t'.graphs id = (StdMap.find? t.graphs id).or (fs.findSome? (graphOf order id)) ∧
      (StdMap.find? t'.transmitters id).getD [] =
        (StdMap.find? t.transmitters id).getD [] ++ fs.filterMap (transmitterOf id) ∧
      (StdMap.find? t'.referencePoints id).getD [] =
        (StdMap.find? t.referencePoints id).getD [] ++ fs.filterMap (refPointOf id) := by
  induction fs generalizing t with
  | nil =>
    simp only [readFeatures] at h; cases h
    intro id; simp
  | cons f fs ih =>
    intro id
    cases f with
    | level l polys =>
      simp only [readFeatures] at h
      have := ih t h id
      simpa [graphOf, linesOf, transmitterOf, refPointOf, List.findSome?_cons, List.filterMap_cons] using this
    | other =>
      simp only [readFeatures] at h
      have := ih t h id
      simpa [graphOf, linesOf, transmitterOf, refPointOf, List.findSome?_cons, List.filterMap_cons] using this
    | graph l lines =>
      simp only [readFeatures] at h
      cases hg : parseGraph order lines with
      | throws => rw [hg] at h; cases h
      | undefined => rw [hg] at h; cases h
      | ok g =>
        rw [hg] at h
        obtain ⟨h1, h2, h3⟩ := ih _ h id
        refine ⟨?_, by simpa [transmitterOf, List.filterMap_cons] using h2,
          by simpa [refPointOf, List.filterMap_cons] using h3⟩
        rw [h1]
        dsimp only
        rw [StdMap.find?_insert, List.findSome?_cons]
        by_cases hl : l = id
        · subst hl
          simp only [graphOf, linesOf, if_true, hg]
          cases StdMap.find? t.graphs l <;> simp
        · simp [graphOf, linesOf, hl]
    | transmitter l uuid A B type coords =>
      simp only [readFeatures] at h
      cases hp : parseTransmitter uuid A B type coords with
      | none => rw [hp] at h; cases h
      | some tx =>
        rw [hp] at h
        obtain ⟨h1, h2, h3⟩ := ih _ h id
        refine ⟨by simpa [graphOf, linesOf, List.findSome?_cons] using h1, ?_,
          by simpa [refPointOf, List.filterMap_cons] using h3⟩
        rw [h2]
        dsimp only
        rw [find?_pushBack, List.filterMap_cons]
        by_cases hl : l = id
        · subst hl; simp [transmitterOf, hp]
        · simp [transmitterOf, hl]
    | refPoint l uuid coords entries =>
      simp only [readFeatures] at h
      cases hp : parseReferencePoint uuid coords entries with
      | none => rw [hp] at h; cases h
      | some rp =>
        rw [hp] at h
        obtain ⟨h1, h2, h3⟩ := ih _ h id
        refine ⟨by simpa [graphOf, linesOf, List.findSome?_cons] using h1,
          by simpa [transmitterOf, List.filterMap_cons] using h2, ?_⟩
        rw [h3]
        dsimp only
        rw [find?_pushBack, List.filterMap_cons]
        by_cases hl : l = id
        · subst hl; simp [refPointOf, hp]
        · simp [refPointOf, hl]

theorem readFeatures_graphs (order : List (Int × GeoPoint) → List (Int × GeoPoint)) (fs : List Feature)
    (t t' : Tables) (h : readFeatures order t fs = .ok t') :
    ∀ l lines, Feature.graph l lines ∈ fs → ∃ g, parseGraph order lines = .ok g := by
  induction fs generalizing t with
  | nil => intro l lines hm; cases hm
  | cons f fs ih =>
    intro l lines hm
    cases f with
    | level _ _ =>
      exact ih t h l lines (by simpa using hm)
    | other => exact ih t h l lines (by simpa using hm)
    | graph l' lines' =>
      simp only [readFeatures] at h
      cases hg : parseGraph order lines' with
      | throws => rw [hg] at h; cases h
      | undefined => rw [hg] at h; cases h
      | ok g =>
        rw [hg] at h
        rcases List.mem_cons.mp hm with hm | hm
        · cases hm; exact ⟨g, hg⟩
        · exact ih _ h l lines hm
    | transmitter l' uuid A B type coords =>
      simp only [readFeatures] at h
      cases hp : parseTransmitter uuid A B type coords with
      | none => rw [hp] at h; cases h
      | some tx => rw [hp] at h; exact ih _ h l lines (by simpa using hm)
    | refPoint l' uuid coords entries =>
      simp only [readFeatures] at h
      cases hp : parseReferencePoint uuid coords entries with
      | none => rw [hp] at h; cases h
      | some rp => rw [hp] at h; exact ih _ h l lines (by simpa using hm)

/-- **C85 (levels).** A map file that is read gives one level per level id that its level features
name, in ascending order of the ids; no other feature creates a level. -/
theorem C85_levels (bg : BoostGeometry) (envelope : List Polygon → Box)
    (order : List (Int × GeoPoint) → List (Int × GeoPoint)) (fs : List Feature) (ls : List FileLevel)
    (h : parseGeojson bg envelope order fs = .ok ls) :
    ls.Pairwise (fun a b => a.id < b.id) ∧
      ∀ id, (∃ l ∈ ls, l.id = id) ↔ ∃ polys, Feature.level id polys ∈ fs := by
  unfold parseGeojson at h
  cases hl : readLevels [] fs with
  | none => rw [hl] at h; cases h
  | some m =>
    rw [hl] at h
    dsimp only at h
    cases hf : readFeatures order ⟨[], [], []⟩ fs with
    | throws => rw [hf] at h; cases h
    | undefined => rw [hf] at h; cases h
    | ok t =>
      rw [hf] at h
      cases h
      obtain ⟨hs, hfind⟩ := readLevels_spec fs [] m List.Pairwise.nil hl
      refine ⟨?_, ?_⟩
      · rw [List.pairwise_map]; exact hs
      · intro id
        have hparse : ∀ fs (m0 m1 : List (String × List Polygon)), readLevels m0 fs = some m1 →
            ∀ l polys, Feature.level l polys ∈ fs → ∃ p, parseLevel polys = some p := by
          intro fs
          induction fs with
          | nil => intro _ _ _ l polys hm; cases hm
          | cons f fs ih =>
            intro m0 m1 h0 l polys hm
            cases f with
            | level l' polys' =>
              simp only [readLevels] at h0
              cases hp : parseLevel polys' with
              | none => rw [hp] at h0; cases h0
              | some p =>
                rw [hp] at h0
                rcases List.mem_cons.mp hm with hm | hm
                · cases hm; exact ⟨p, hp⟩
                · exact ih _ _ h0 l polys hm
            | graph _ _ => exact ih m0 m1 h0 l polys (by simpa using hm)
            | transmitter _ _ _ _ _ _ => exact ih m0 m1 h0 l polys (by simpa using hm)
            | refPoint _ _ _ _ => exact ih m0 m1 h0 l polys (by simpa using hm)
            | other => exact ih m0 m1 h0 l polys (by simpa using hm)
        constructor
        · rintro ⟨l, hl', rfl⟩
          obtain ⟨e, he, rfl⟩ := List.mem_map.mp hl'
          have h1 := StdMap.find?_of_mem hs (show (e.1, e.2) ∈ m from he)
          rw [hfind] at h1
          simp only [StdMap.find?_nil, Option.none_or] at h1
          obtain ⟨f, hfm, hfa⟩ := List.exists_of_findSome?_eq_some h1
          cases f with
          | level l' polys =>
            simp only [areaOf] at hfa
            split_ifs at hfa with hid
            subst hid
            exact ⟨polys, hfm⟩
          | graph _ _ => cases hfa
          | transmitter _ _ _ _ _ _ => cases hfa
          | refPoint _ _ _ _ => cases hfa
          | other => cases hfa
        · rintro ⟨polys, hm⟩
          obtain ⟨p, hp⟩ := hparse fs [] m hl id polys hm
          have hsome : (fs.findSome? (areaOf id)).isSome := by
            rw [List.findSome?_isSome_iff]
            exact ⟨_, hm, by simp [areaOf, hp]⟩
          have : (StdMap.find? m id).isSome := by rw [hfind]; simpa using hsome
          obtain ⟨a, ha⟩ := Option.isSome_iff_exists.mp this
          exact ⟨makeLevel bg envelope t (id, a), List.mem_map.mpr ⟨_, StdMap.mem_of_find? ha, rfl⟩, rfl⟩

/-- **C85 (content).** A level of the result has the area of the first level feature with its id,
the graph of the first graph feature of the level (an empty graph if there is none), all
transmitters and all reference points of the level in file order, and the altitude 100. -/
theorem C85_content (bg : BoostGeometry) (envelope : List Polygon → Box)
    (order : List (Int × GeoPoint) → List (Int × GeoPoint)) (fs : List Feature) (ls : List FileLevel)
    (h : parseGeojson bg envelope order fs = .ok ls) (l : FileLevel) (hl : l ∈ ls) :
    (∃ area, fs.findSome? (areaOf l.id) = some area ∧ l.geometry = getGeometry bg envelope area) ∧
    (match fs.findSome? (linesOf l.id) with
      | some lines => parseGraph order lines = .ok l.graph
      | none => l.graph = NavGraph.empty) ∧
    l.transmitters = fs.filterMap (transmitterOf l.id) ∧
    l.referencePoints = fs.filterMap (refPointOf l.id) ∧ l.altitude = 100 := by
  unfold parseGeojson at h
  cases hlv : readLevels [] fs with
  | none => rw [hlv] at h; cases h
  | some m =>
    rw [hlv] at h
    dsimp only at h
    cases hf : readFeatures order ⟨[], [], []⟩ fs with
    | throws => rw [hf] at h; cases h
    | undefined => rw [hf] at h; cases h
    | ok t =>
      rw [hf] at h
      cases h
      obtain ⟨hs, hfind⟩ := readLevels_spec fs [] m List.Pairwise.nil hlv
      obtain ⟨e, he, rfl⟩ := List.mem_map.mp hl
      obtain ⟨h1, h2, h3⟩ := readFeatures_spec order fs _ t hf e.1
      have hgr := readFeatures_graphs order fs _ t hf
      refine ⟨⟨e.2, ?_, rfl⟩, ?_, by simpa [makeLevel] using h2, by simpa [makeLevel] using h3, rfl⟩
      · have h0 := StdMap.find?_of_mem hs (show (e.1, e.2) ∈ m from he)
        rw [hfind] at h0
        simpa [makeLevel] using h0
      · have hid : (makeLevel bg envelope t e).id = e.1 := rfl
        have hgraph : (makeLevel bg envelope t e).graph = (StdMap.find? t.graphs e.1).getD NavGraph.empty := rfl
        rw [hid, hgraph, h1]
        simp only [StdMap.find?_nil, Option.none_or]
        have hcomp : ∀ fs' : List Feature, (∀ l lines, Feature.graph l lines ∈ fs' → ∃ g, parseGraph order lines = .ok g) →
            match fs'.findSome? (linesOf e.1) with
            | some lines => parseGraph order lines = .ok ((fs'.findSome? (graphOf order e.1)).getD NavGraph.empty)
            | none => (fs'.findSome? (graphOf order e.1)).getD NavGraph.empty = NavGraph.empty := by
          intro fs'
          induction fs' with
          | nil => intro _; simp
          | cons f fs' ih =>
            intro hall
            have hrest := ih (fun l lines hm => hall l lines (List.mem_cons_of_mem _ hm))
            cases f with
            | graph l' lines' =>
              by_cases hl' : l' = e.1
              · obtain ⟨g, hg⟩ := hall l' lines' List.mem_cons_self
                simp [linesOf, graphOf, hl', hg]
              · simpa [List.findSome?_cons, linesOf, graphOf, hl'] using hrest
            | level _ _ => simpa [List.findSome?_cons, linesOf, graphOf] using hrest
            | transmitter _ _ _ _ _ _ => simpa [List.findSome?_cons, linesOf, graphOf] using hrest
            | refPoint _ _ _ _ => simpa [List.findSome?_cons, linesOf, graphOf] using hrest
            | other => simpa [List.findSome?_cons, linesOf, graphOf] using hrest
        exact hcomp fs hgr

/-- A stored point is the coordinate array `[longitude, latitude, …]` of the file. -/
def StoresPoint (c : List ℝ) (p : Verif.Geo.XYPoint) : Prop :=
  ∃ lon lat rest, c = lon :: lat :: rest ∧ p.x = lat ∧ p.y = lon

/-- A stored polygon is a polygon of the file: its first ring is the outer boundary, the others the
holes in order, each as boost corrects it. -/
def StoresPolygon (bg : BoostGeometry) (rings : List (List (List ℝ))) (p : Polygon) : Prop :=
  ∃ outer inners ro ri, rings = outer :: inners ∧ List.Forall₂ StoresPoint outer ro ∧
    List.Forall₂ (List.Forall₂ StoresPoint) inners ri ∧ p.outer = bg.correctOuter ro ∧
    p.inners = ri.map bg.correctInner

/-- The polygons of a feature that describes the level `id`. -/
def polygonsOf (id : String) : Feature → Option (List (List (List (List ℝ))))
  | .level l polys => if l = id then some polys else none
  | _ => none

/-- **C85 (area).** The allowed area of a level consists of the polygons of the first level feature
with its id, corner for corner with latitude and longitude exchanged, outer boundaries and holes
corrected; the bounding box is the envelope of this area, and the barriers are its holes. -/
theorem C85_area (bg : BoostGeometry) (envelope : List Polygon → Box)
    (order : List (Int × GeoPoint) → List (Int × GeoPoint)) (fs : List Feature) (ls : List FileLevel)
    (h : parseGeojson bg envelope order fs = .ok ls) (l : FileLevel) (hl : l ∈ ls) :
    (∃ polys, fs.findSome? (polygonsOf l.id) = some polys ∧
      List.Forall₂ (StoresPolygon bg) polys l.geometry.allowedArea) ∧
    l.geometry.boundingBox = envelope l.geometry.allowedArea ∧
    l.geometry.innerBarriers = (l.geometry.allowedArea.flatMap Polygon.inners).map bg.correctRing := by
  obtain ⟨⟨area, ha, hg⟩, -⟩ := C85_content bg envelope order fs ls h l hl
  have hlev : ∃ m, readLevels [] fs = some m := by
    unfold parseGeojson at h
    cases hlv : readLevels [] fs with
    | none => rw [hlv] at h; cases h
    | some m => exact ⟨m, rfl⟩
  obtain ⟨m, hm⟩ := hlev
  have key : ∀ (fs : List Feature) (m m' : List (String × List Polygon)) (area : List Polygon),
      readLevels m fs = some m' → fs.findSome? (areaOf l.id) = some area →
      ∃ polys, fs.findSome? (polygonsOf l.id) = some polys ∧ parseLevel polys = some area := by
    intro fs
    induction fs with
    | nil => intro m m' area _ h1; cases h1
    | cons f fs ih =>
      intro m m' area h0 h1
      cases f with
      | level k polys =>
        simp only [readLevels] at h0
        cases hp : parseLevel polys with
        | none => rw [hp] at h0; cases h0
        | some q =>
          rw [hp] at h0
          by_cases hk : k = l.id
          · refine ⟨polys, by simp [polygonsOf, hk], ?_⟩
            simpa [List.findSome?_cons, areaOf, hk, hp] using h1
          · obtain ⟨ps, h2, h3⟩ := ih _ _ area h0 (by simpa [List.findSome?_cons, areaOf, hk] using h1)
            exact ⟨ps, by simpa [List.findSome?_cons, polygonsOf, hk] using h2, h3⟩
      | graph _ _ => exact ih _ _ area h0 h1
      | transmitter _ _ _ _ _ _ => exact ih _ _ area h0 h1
      | refPoint _ _ _ _ => exact ih _ _ area h0 h1
      | other => exact ih _ _ area h0 h1
  obtain ⟨polys, h1, h2⟩ := key fs [] m area hm ha
  rw [hg]
  refine ⟨⟨polys, h1, ?_⟩, rfl, rfl⟩
  have hring : ∀ (r : List (List ℝ)) (q : List Verif.Geo.XYPoint), r.mapM toXY = some q →
      List.Forall₂ StoresPoint r q := by
    intro r q hr
    refine (mapM_forall₂ _ _ _ hr).imp ?_
    intro c p hc
    match c, hc with
    | lon :: lat :: rest, hc =>
      simp only [toXY, Option.some.injEq] at hc
      subst hc
      exact ⟨lon, lat, rest, rfl, rfl, rfl⟩
  have hstep : ∀ (rings : List (List (List ℝ))) (p : Polygon), parsePolygon rings = some p →
      StoresPolygon bg rings ⟨bg.correctOuter p.outer, p.inners.map bg.correctInner⟩ := by
    intro rings p hp
    unfold parsePolygon at hp
    cases hr : rings.mapM (fun r => r.mapM toXY) with
    | none => rw [hr] at hp; cases hp
    | some rs =>
      rw [hr] at hp
      match rs, hp, hr with
      | outer :: inners, hp, hr =>
        cases hp
        have h3 := mapM_forall₂ _ _ _ hr
        cases h3 with
        | cons ho hi =>
          exact ⟨_, _, outer, inners, rfl, hring _ _ ho, hi.imp (fun a b hab => hring a b hab), rfl, rfl⟩
  have h3 := mapM_forall₂ _ _ _ h2
  simp only [getGeometry, mkLevelGeometry]
  rw [List.forall₂_map_right_iff]
  exact h3.imp (fun a b hab => hstep a b hab)

/-- Coordinate arrays have at least two numbers, polygons at least one ring and graph lines at least
two points. -/
def WellFormed : Feature → Prop
  | .level _ polys => ∀ p ∈ polys, p ≠ [] ∧ ∀ r ∈ p, ∀ c ∈ r, 2 ≤ c.length
  | .graph _ lines => ∀ l ∈ lines, 2 ≤ l.length ∧ ∀ c ∈ l, 2 ≤ c.length
  | .transmitter _ _ _ _ _ coords => 2 ≤ coords.length
  | .refPoint _ _ coords _ => 2 ≤ coords.length
  | .other => True

theorem mapM_length {α β : Type} (f : α → Option β) (l : List α) (m : List β) (h : l.mapM f = some m) :
    l.length = m.length := (mapM_forall₂ f l m h).length_eq

/-- **C85 (success).** A file with well-formed features is read without an exception. -/
theorem C85_total (bg : BoostGeometry) (envelope : List Polygon → Box)
    (order : List (Int × GeoPoint) → List (Int × GeoPoint)) (ho : ∀ m, (order m).Perm m)
    (fs : List Feature) (hw : ∀ f ∈ fs, WellFormed f) :
    ∃ ls, parseGeojson bg envelope order fs = .ok ls := by
  have h1 : ∀ (fs : List Feature) (m : List (String × List Polygon)), (∀ f ∈ fs, WellFormed f) →
      ∃ m', readLevels m fs = some m' := by
    intro fs
    induction fs with
    | nil => intro m _; exact ⟨m, rfl⟩
    | cons f fs ih =>
      intro m hw
      have hr := fun m => ih m (fun f hf => hw f (List.mem_cons_of_mem _ hf))
      cases f with
      | level l polys =>
        have hwf : ∀ p ∈ polys, p ≠ [] ∧ ∀ r ∈ p, ∀ c ∈ r, 2 ≤ c.length := hw _ List.mem_cons_self
        obtain ⟨ps, hps⟩ : ∃ ps, parseLevel polys = some ps := by
          refine mapM_isSome _ _ (fun p hp => ?_)
          obtain ⟨hne, hc⟩ := hwf p hp
          obtain ⟨rs, hrs⟩ : ∃ rs, p.mapM (fun r => r.mapM toXY) = some rs := by
            refine mapM_isSome _ _ (fun r hr => mapM_isSome _ _ (fun c hcr => ?_))
            match c, hc r hr c hcr with
            | lon :: lat :: rest, _ => exact ⟨_, rfl⟩
          have hlen := mapM_length _ _ _ hrs
          match rs, hlen, hrs with
          | [], hlen, _ => exact absurd (List.length_eq_zero_iff.mp hlen) hne
          | o :: i, _, hrs => exact ⟨⟨o, i⟩, by simp only [parsePolygon, hrs]⟩
        simp only [readLevels, hps]
        exact hr _
      | graph _ _ => exact hr m
      | transmitter _ _ _ _ _ _ => exact hr m
      | refPoint _ _ _ _ => exact hr m
      | other => exact hr m
  have h2 : ∀ (fs : List Feature) (t : Tables), (∀ f ∈ fs, WellFormed f) →
      ∃ t', readFeatures order t fs = .ok t' := by
    intro fs
    induction fs with
    | nil => intro t _; exact ⟨t, rfl⟩
    | cons f fs ih =>
      intro t hw
      have hr := fun t => ih t (fun f hf => hw f (List.mem_cons_of_mem _ hf))
      cases f with
      | level _ _ => exact hr t
      | other => exact hr t
      | graph l lines =>
        have hwf : ∀ l ∈ lines, 2 ≤ l.length ∧ ∀ c ∈ l, 2 ≤ c.length := hw _ List.mem_cons_self
        obtain ⟨g, hg⟩ := (C71_total order ho lines).1 (fun l hl => (hwf l hl).2) (fun l hl => (hwf l hl).1)
        simp only [readFeatures, hg]
        exact hr _
      | transmitter l uuid A B type coords =>
        have hwf : 2 ≤ coords.length := hw _ List.mem_cons_self
        match coords, hwf with
        | lon :: lat :: rest, _ =>
          simp only [readFeatures, parseTransmitter]
          exact hr _
      | refPoint l uuid coords entries =>
        have hwf : 2 ≤ coords.length := hw _ List.mem_cons_self
        match coords, hwf with
        | lon :: lat :: rest, _ =>
          simp only [readFeatures, parseReferencePoint, toPoint]
          exact hr _
  obtain ⟨m, hm⟩ := h1 fs [] hw
  obtain ⟨t, ht⟩ := h2 fs ⟨[], [], []⟩ hw
  exact ⟨m.map (makeLevel bg envelope t), by simp only [parseGeojson, hm, ht]⟩

/-- **C85 (transmitters).** GeoJSON coordinates are longitude first; an altitude is taken only from
arrays of exactly three numbers; missing path-loss parameters become `A = -80`, `B = 3`. -/
theorem C85_transmitter (uuid : String) (A B : Option ℝ) (type : TransmitterType) (lon lat : ℝ)
    (rest : List ℝ) :
    ∃ t, parseTransmitter uuid A B type (lon :: lat :: rest) = some t ∧ t.id = uuid ∧ t.type = type ∧
      t.point.latitude = lat ∧ t.point.longitude = lon ∧
      (∀ alt, rest = [alt] → t.point.altitude = alt) ∧ (rest.length ≠ 1 → t.point.altitude = 0) ∧
      (∀ a, A = some a → t.pathloss.A = a) ∧ (A = none → t.pathloss.A = -80) ∧
      (∀ b, B = some b → t.pathloss.B = b) ∧ (B = none → t.pathloss.B = 3) ∧ t.pathloss.power = 0 := by
  refine ⟨_, rfl, rfl, rfl, rfl, rfl, ?_, ?_, ?_, ?_, ?_, ?_, rfl⟩
  · rintro alt rfl; rfl
  · intro h
    match rest, h with
    | [], _ => rfl
    | [_], h => exact absurd rfl h
    | _ :: _ :: _, _ => rfl
  · rintro a rfl; rfl
  · rintro rfl; rfl
  · rintro b rfl; rfl
  · rintro rfl; rfl

/-! ## C86: fingerprints -/

theorem distribution_find (values : List (Int × ℕ)) (m : List (Int × ℕ)) (r : Int) :
    StdMap.find? (values.foldl (fun m v => StdMap.insert m v.1 v.2) m) r =
      (StdMap.find? m r).or ((values.find? (fun v => v.1 = r)).map Prod.snd) := by
  induction values generalizing m with
  | nil => simp
  | cons v values ih =>
    rw [List.foldl_cons, ih, StdMap.find?_insert, List.find?_cons]
    by_cases h : v.1 = r
    · subst h
      cases StdMap.find? m v.1 <;> simp
    · simp [h]

theorem insertSorted_perm {V : Type} (k : Int) (v : V) (m : List (Int × V)) :
    (StdMap.insertSorted k v m).Perm ((k, v) :: m) := by
  induction m with
  | nil => exact List.Perm.refl _
  | cons a m ih =>
    unfold StdMap.insertSorted
    split_ifs
    · exact List.Perm.refl _
    · exact (List.Perm.cons a ih).trans (List.Perm.swap _ _ _)

/-- The pairs that count: of several pairs with the same value only the first. -/
def firstPairs (values : List (Int × ℕ)) : List (Int × ℕ) :=
  values.foldl (fun acc v => if acc.any (fun w => w.1 = v.1) then acc else acc ++ [v]) []

theorem isSome_find?_iff_any (m : List (Int × ℕ)) (k : Int) :
    (StdMap.find? m k).isSome = m.any (fun w => w.1 = k) := by
  induction m with
  | nil => simp
  | cons a m ih =>
    simp only [StdMap.find?, List.any_cons]
    by_cases h : a.1 = k
    · simp [h]
    · simp [h, ih]

theorem distribution_perm (values : List (Int × ℕ)) : (distribution values).Perm (firstPairs values) := by
  unfold distribution firstPairs
  have key : ∀ (values m acc : List (Int × ℕ)), m.Perm acc →
      (values.foldl (fun m v => StdMap.insert m v.1 v.2) m).Perm
        (values.foldl (fun acc v => if acc.any (fun w => w.1 = v.1) then acc else acc ++ [v]) acc) := by
    intro values
    induction values with
    | nil => intro m acc h; exact h
    | cons v values ih =>
      intro m acc h
      rw [List.foldl_cons, List.foldl_cons]
      refine ih _ _ ?_
      unfold StdMap.insert
      rw [isSome_find?_iff_any]
      have hany : m.any (fun w => w.1 = v.1) = acc.any (fun w => w.1 = v.1) := by
        rw [Bool.eq_iff_iff, List.any_eq_true, List.any_eq_true]
        constructor
        · rintro ⟨x, hx, hp⟩; exact ⟨x, h.mem_iff.mp hx, hp⟩
        · rintro ⟨x, hx, hp⟩; exact ⟨x, h.mem_iff.mpr hx, hp⟩
      rw [hany]
      split_ifs
      · exact h
      · exact (insertSorted_perm _ _ _).trans ((List.Perm.cons _ h).trans
          (List.perm_append_singleton _ _).symm)
  exact key values [] [] (List.Perm.refl _)

/-- If no value is repeated, all pairs count. -/
theorem firstPairs_of_nodup (values : List (Int × ℕ)) (h : (values.map Prod.fst).Nodup) :
    firstPairs values = values := by
  unfold firstPairs
  have key : ∀ (values acc : List (Int × ℕ)), ((acc ++ values).map Prod.fst).Nodup →
      values.foldl (fun acc v => if acc.any (fun w => w.1 = v.1) then acc else acc ++ [v]) acc = acc ++ values := by
    intro values
    induction values with
    | nil => intro acc _; simp
    | cons v values ih =>
      intro acc hn
      rw [List.foldl_cons, if_neg, ih (acc ++ [v]) (by simpa using hn)]
      · simp
      · intro hc
        rw [List.any_eq_true] at hc
        obtain ⟨w, hw, he⟩ := hc
        rw [List.map_append, List.nodup_append] at hn
        exact hn.2.2 w.1 (List.mem_map.mpr ⟨w, hw, rfl⟩) v.1 (by simp) (by simpa using he)
  have := key values [] (by simpa using h)
  simpa using this

theorem foldl_count (d : List (Int × ℕ)) (n : ℕ) :
    d.foldl (fun n v => n + v.2) n = n + (d.map (fun v => v.2)).sum := by
  induction d generalizing n with
  | nil => simp
  | cons v d ih => rw [List.foldl_cons, ih, List.map_cons, List.sum_cons, Nat.add_assoc]

theorem foldl_weighted (d : List (Int × ℕ)) (s : ℝ) :
    d.foldl (fun (s : ℝ) v => s + -(v.1 : ℝ) * (v.2 : ℝ)) s =
      s - (d.map (fun v => (v.1 : ℝ) * (v.2 : ℝ))).sum := by
  induction d generalizing s with
  | nil => simp
  | cons v d ih => rw [List.foldl_cons, ih, List.map_cons, List.sum_cons]; ring

/-- **C86 (statistics).** The number of measurements stored for a transmitter is the sum of the
counts of its pairs, repeated values counting once with their first count; the mean is minus the
weighted average of the values (NaN for no measurement), and the variance is always `0`. -/
theorem C86_statistics (e : Entry) :
    (entryStats e).nMeasurements = ((firstPairs e.values).map (fun v => v.2)).sum ∧
    (((firstPairs e.values).map (fun v => v.2)).sum = 0 → (entryStats e).mean = none) ∧
    (((firstPairs e.values).map (fun v => v.2)).sum ≠ 0 → (entryStats e).mean =
      some (-(((firstPairs e.values).map (fun v => (v.1 : ℝ) * (v.2 : ℝ))).sum /
        (((firstPairs e.values).map (fun v => v.2)).sum : ℕ)))) ∧
    (entryStats e).variance = 0 ∧ (entryStats e).type = e.type := by
  have hp := distribution_perm e.values
  have hn : (distribution e.values).foldl (fun n v => n + v.2) 0 =
      ((firstPairs e.values).map (fun v => v.2)).sum := by
    rw [foldl_count, Nat.zero_add]
    exact (hp.map _).sum_eq
  have hs : (distribution e.values).foldl (fun (s : ℝ) v => s + -(v.1 : ℝ) * (v.2 : ℝ)) 0 =
      -((firstPairs e.values).map (fun v => (v.1 : ℝ) * (v.2 : ℝ))).sum := by
    rw [foldl_weighted, zero_sub, (hp.map (fun v : Int × ℕ => (v.1 : ℝ) * (v.2 : ℝ))).sum_eq]
  refine ⟨hn, ?_, ?_, rfl, rfl⟩
  · intro h0
    simp only [entryStats, hn, h0, if_true]
  · intro h0
    simp only [entryStats, hn, hs, if_neg h0]
    rw [neg_div]

/-- **C86 (range).** The mean lies between the negated extreme values of the entry. -/
theorem C86_range (e : Entry) (μ : ℝ) (h : (entryStats e).mean = some μ) (lo hi : Int)
    (hb : ∀ v ∈ e.values, lo ≤ v.1 ∧ v.1 ≤ hi) : -(hi : ℝ) ≤ μ ∧ μ ≤ -(lo : ℝ) := by
  obtain ⟨-, h0, h1, -⟩ := C86_statistics e
  have hmem : ∀ v ∈ firstPairs e.values, v ∈ e.values := by
    have key : ∀ (vs acc : List (Int × ℕ)) (P : Int × ℕ → Prop), (∀ v ∈ acc, P v) → (∀ v ∈ vs, P v) →
        ∀ v ∈ vs.foldl (fun acc v => if acc.any (fun w => w.1 = v.1) then acc else acc ++ [v]) acc, P v := by
      intro vs
      induction vs with
      | nil => intro acc P ha _; exact ha
      | cons v vs ih =>
        intro acc P ha hv
        rw [List.foldl_cons]
        refine ih _ P ?_ (fun w hw => hv w (List.mem_cons_of_mem _ hw))
        split_ifs
        · exact ha
        · intro w hw
          rcases List.mem_append.mp hw with hw | hw
          · exact ha w hw
          · rw [List.mem_singleton.mp hw]; exact hv v List.mem_cons_self
    exact key e.values [] (· ∈ e.values) (by simp) (fun v hv => hv)
  by_cases hz : ((firstPairs e.values).map (fun v => v.2)).sum = 0
  · rw [h0 hz] at h; cases h
  · rw [h1 hz] at h
    cases h
    have hpos : (0 : ℝ) < (((firstPairs e.values).map (fun v => v.2)).sum : ℕ) := by
      exact_mod_cast Nat.pos_of_ne_zero hz
    have hsum : ∀ d : List (Int × ℕ), (∀ v ∈ d, v ∈ e.values) →
        (lo : ℝ) * ((d.map (fun v => v.2)).sum : ℕ) ≤ (d.map (fun v => (v.1 : ℝ) * (v.2 : ℝ))).sum ∧
        (d.map (fun v => (v.1 : ℝ) * (v.2 : ℝ))).sum ≤ (hi : ℝ) * ((d.map (fun v => v.2)).sum : ℕ) := by
      intro d
      induction d with
      | nil => intro _; simp
      | cons v d ih =>
        intro hd
        obtain ⟨i1, i2⟩ := ih (fun w hw => hd w (List.mem_cons_of_mem _ hw))
        obtain ⟨b1, b2⟩ := hb v (hd v List.mem_cons_self)
        have c0 : (0 : ℝ) ≤ (v.2 : ℝ) := Nat.cast_nonneg _
        have c1 : (lo : ℝ) * v.2 ≤ (v.1 : ℝ) * v.2 := mul_le_mul_of_nonneg_right (by exact_mod_cast b1) c0
        have c2 : (v.1 : ℝ) * v.2 ≤ (hi : ℝ) * v.2 := mul_le_mul_of_nonneg_right (by exact_mod_cast b2) c0
        simp only [List.map_cons, List.sum_cons, Nat.cast_add]
        constructor
        · rw [mul_add]; linarith
        · rw [mul_add]; linarith
    obtain ⟨s1, s2⟩ := hsum _ hmem
    constructor
    · rw [neg_le_neg_iff, div_le_iff₀ hpos]; exact s2
    · rw [neg_le_neg_iff, le_div_iff₀ hpos]; exact s1

/-- **C86 (fingerprints).** A reference point stores, per transmitter, the statistics of the first
entry that names it. -/
theorem C86_fingerprints (uuid : String) (lon lat : ℝ) (rest : List ℝ) (entries : List Entry) :
    ∃ rp, parseReferencePoint uuid (lon :: lat :: rest) entries = some rp ∧ rp.id = uuid ∧
      rp.point = ⟨lat, lon⟩ ∧
      (rp.fingerprints.Pairwise (fun a b => a.1 < b.1)) ∧
      ∀ tx, StdMap.find? rp.fingerprints tx =
        (entries.find? (fun e => e.bssid = tx)).map entryStats := by
  refine ⟨_, rfl, rfl, rfl, ?_, ?_⟩
  · have key : ∀ (es : List Entry) (m : List (String × FileStats)), StdMap.Sorted m →
        StdMap.Sorted (es.foldl (fun m e => StdMap.insert m e.bssid (entryStats e)) m) := by
      intro es
      induction es with
      | nil => intro m h; exact h
      | cons e es ih => intro m h; exact ih _ (StdMap.insert_sorted _ _ _ h)
    exact key entries [] List.Pairwise.nil
  · intro tx
    have key : ∀ (es : List Entry) (m : List (String × FileStats)),
        StdMap.find? (es.foldl (fun m e => StdMap.insert m e.bssid (entryStats e)) m) tx =
          (StdMap.find? m tx).or ((es.find? (fun e => e.bssid = tx)).map entryStats) := by
      intro es
      induction es with
      | nil => intro m; simp
      | cons e es ih =>
        intro m
        rw [List.foldl_cons, ih, StdMap.find?_insert, List.find?_cons]
        by_cases h : e.bssid = tx
        · subst h
          cases StdMap.find? m e.bssid <;> simp
        · simp [h]
    have := key entries []
    simpa using this

/-- A file with two levels, a transmitter, a reference point and a graph is well formed. -/
example : ∀ f ∈ [Feature.level "1" [[[[0, 0], [0, 1], [1, 1]]]], .level "2" [], .other,
    .graph "1" [[[0, 0], [0, 90]]], .transmitter "1" "a" none (some 2) .BEACON [1, 2, 3],
    .refPoint "2" "r" [1, 2] [⟨"a", .BEACON, [(70, 2), (75, 1), (70, 5)]⟩]], WellFormed f := by
  intro f hf
  simp only [List.mem_cons, List.not_mem_nil, or_false] at hf
  rcases hf with rfl | rfl | rfl | rfl | rfl | rfl <;> simp [WellFormed]

/-- The repeated value `70` counts twice, not seven times. -/
example : (entryStats ⟨"a", .BEACON, [(70, 2), (75, 1), (70, 5)]⟩).nMeasurements = 3 := by
  rw [(C86_statistics _).1]; decide

end Verif.MapLoad
