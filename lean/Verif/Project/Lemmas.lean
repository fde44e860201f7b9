import Verif.Project.Spec
import Verif.Bias.Lemmas
import Verif.Nav.Trace
import Verif.Post.StopProps

/-!
# C134: the two clients, part by part
-/

namespace Verif.Project

open Verif Verif.Levels Verif.Nav
open Verif.Geo (XYPoint)
open Verif.Knn (Result)
open Verif.Bias (Rel rel_andThen rel_eq)

variable {cs : CommonSettings} {D : ℝ} {ls : List Level}

/-- The two last answers: the same up to the place. -/
def Moved (p q : Position) : Prop := q = { p with x := q.x, y := q.y }

/-- What the two postprocessors hold. -/
structure MovedPost (s t : Post.PostState) : Prop where
  rest : t = { s with lastOut := t.lastOut }
  last : Moved s.lastOut t.lastOut

/-- The two positions that are shown. -/
def MovedPos (ls : List Level) (D : ℝ) (p q : Position) : Prop :=
  (q = p ∧ Gnss p) ∨ ∃ u ∈ ls, ∃ a b : Position, p = Post.fitInBox u.geometry.boundingBox a ∧
    q = Post.fitInBox u.geometry.boundingBox b ∧ Moved a b ∧ Drawn u D a.toXY b.toXY

theorem movedPos_moved {p q : Position} (h : MovedPos ls D p q) : Moved p q := by
  rcases h with ⟨rfl, -⟩ | ⟨u, -, a, b, rfl, rfl, h, -⟩
  · rfl
  · unfold Moved at h
    rw [h]
    rfl

theorem movedPost_eq {s t : Post.PostState} (h : MovedPost s t) : ∃ l, t = { s with lastOut := l } ∧ Moved s.lastOut l :=
  ⟨t.lastOut, h.rest, h.last⟩

theorem smoothing_moved (al : ℝ → ℝ → Prop) (s : Post.PostState) (l : Position) (hl : l.levelId = s.lastOut.levelId) (f : Position) (ts : Int) :
    Post.smoothing (onto D cs) al { s with lastOut := l } f ts =
      (Post.smoothing cs al s f ts).map (fun r => (r.1, { r.2 with lastOut := l })) := by
  unfold Post.smoothing
  simp only [onto, hl]
  by_cases h1 : cs.useSmoothing = true <;> by_cases h2 : cs.useTimeSmoothing = true <;>
    simp only [h1, h2, if_true, Option.map_map] <;> try rfl

theorem takeOver_moved (hs : cs.useStops = false) (s : Post.PostState) (l r : Position) (ts : Int) :
    Post.takeOver (onto D cs) { s with lastOut := l } r ts = Post.takeOver cs s r ts := by
  unfold Post.takeOver
  have h1 : ¬ (cs.useStops = true ∧ Post.stopDetected cs s ts) := by simp [hs]
  have h2 : ¬ ((onto D cs).useStops = true ∧ Post.stopDetected (onto D cs) { s with lastOut := l } ts) := by simp [onto, hs]
  dsimp only
  rw [if_neg h1, if_neg h2]

/-- Places drawn to the graph. -/
theorem snap_drawn {u : Level} (hg : ∃ ops, u.graph = NavGraph.run ops) (p : Position) :
    ∃ q, Post.snapToGraph (onto D cs) u p = some q ∧ Moved p q ∧ Drawn u D p.toXY q.toXY := by
  obtain ⟨ops, ho⟩ := hg
  obtain ⟨q, h1, -, h3⟩ := Post.C40_snap (cs := onto D cs) ops u ho p rfl
  refine ⟨q, h1, h3, ?_⟩
  intro ops' ho'
  obtain ⟨q', k1, k2, -⟩ := Post.C40_snap (cs := onto D cs) ops' u ho' p rfl
  rw [h1, Option.some.injEq] at k1
  subst k1
  rcases k2 with k | ⟨k, k'⟩
  · exact .inl k
  · exact .inr ⟨by rw [k], k'⟩

theorem snap_plain (hg : cs.useGraphProjection = false) (u : Level) (p : Position) : Post.snapToGraph cs u p = some p := by
  unfold Post.snapToGraph
  rw [if_neg (by simp [hg])]

theorem process_taken {al : ℝ → ℝ → Prop} {s : Post.PostState} {f : Position} {ts m : Int} {u : Level} (h : ¬ Post.Rejects cs f ts u) :
    Post.getProcessedPosition cs al s f ts m u = (Post.smoothing cs al (Post.noteMotion s m) f ts).bind (fun r =>
      (Post.snapToGraph cs u (Post.takeOver cs r.2 r.1 ts).lastOut).map (fun p =>
        (Post.fitInBox u.geometry.boundingBox p,
          { Post.takeOver cs r.2 r.1 ts with lastOut := Post.fitInBox u.geometry.boundingBox p }))) := by
  unfold Post.Rejects at h
  push Not at h
  obtain ⟨h1, h2, h3⟩ := h
  unfold Post.getProcessedPosition
  dsimp only
  rw [if_neg h1, if_neg (by simpa using h2), if_neg (by omega)]
  rfl

theorem processed_moved (hg : cs.useGraphProjection = false) (hs : cs.useStops = false) {u : Level} (hu : u ∈ ls)
    (hgr : ∃ ops, u.graph = NavGraph.run ops) (al : ℝ → ℝ → Prop) {s t : Post.PostState} (h : MovedPost s t) (f : Position) (ts m : Int) :
    Rel (fun r r' => MovedPos ls D r.1 r'.1 ∧ MovedPost r.2 r'.2) (orUndefined (Post.getProcessedPosition cs al s f ts m u))
      (orUndefined (Post.getProcessedPosition (onto D cs) al t f ts m u)) := by
  obtain ⟨l, rfl, hl⟩ := movedPost_eq h
  have hll : l.levelId = s.lastOut.levelId := by rw [hl]
  have e1 : Post.noteMotion { s with lastOut := l } m = { Post.noteMotion s m with lastOut := l } := by
    unfold Post.noteMotion
    split_ifs <;> rfl
  have e2 : (Post.noteMotion s m).lastOut = s.lastOut := by
    unfold Post.noteMotion
    split_ifs <;> rfl
  have hp : MovedPost (Post.noteMotion s m) (Post.noteMotion { s with lastOut := l } m) := by
    rw [e1]
    exact ⟨rfl, by rw [e2]; exact hl⟩
  have hd : MovedPos ls D Position.default Position.default := .inl ⟨rfl, fun h => by cases h⟩
  by_cases hr : Post.Rejects cs f ts u
  · have hr' : Post.Rejects (onto D cs) f ts u := hr
    rw [Post.process_rejects hr, Post.process_rejects hr']
    exact ⟨hd, hp⟩
  · have hr' : ¬ Post.Rejects (onto D cs) f ts u := hr
    rw [process_taken hr, process_taken hr', e1, smoothing_moved al _ l (by rw [e2]; exact hll)]
    cases Post.smoothing cs al (Post.noteMotion s m) f ts with
    | none => trivial
    | some r =>
      simp only [Option.map_some, Option.bind_some]
      rw [takeOver_moved hs, snap_plain hg]
      obtain ⟨q, h1, h2, h3⟩ := snap_drawn (cs := cs) (D := D) hgr (Post.takeOver cs r.2 r.1 ts).lastOut
      rw [h1]
      refine ⟨.inr ⟨u, hu, _, q, rfl, rfl, h2, h3⟩, rfl, ?_⟩
      show Moved (Post.fitInBox _ _) (Post.fitInBox _ _)
      unfold Moved at h2
      rw [h2]
      rfl

/-! ## The client -/

/-- What the two clients hold. -/
structure MovedState (ls : List Level) (D : ℝ) (s t : State) : Prop where
  rest : t = { s with post := t.post, position := t.position }
  post : MovedPost s.post t.post
  position : MovedPos ls D s.position t.position
  gnss : Gnss s.outdoor.last

theorem fuse_moved {s t : Post.PostState} (h : MovedPost s t) (u : Int) (i o : Position) (st : NavigationStatus) :
    (Post.fusePositions (onto D cs) t u i o st).1 = (Post.fusePositions cs s u i o st).1 ∧
      MovedPost (Post.fusePositions cs s u i o st).2 (Post.fusePositions (onto D cs) t u i o st).2 := by
  obtain ⟨l, rfl, hl⟩ := movedPost_eq h
  have e1 : Post.fillIndoor (onto D cs) { s with lastOut := l } i = { Post.fillIndoor cs s i with lastOut := l } := by
    unfold Post.fillIndoor
    split_ifs <;> rfl
  have e2 : ∀ s, Post.fillOutdoor (onto D cs) { s with lastOut := l } o = { Post.fillOutdoor cs s o with lastOut := l } := by
    intro s
    unfold Post.fillOutdoor
    split_ifs <;> rfl
  have e3 : ∀ s : Post.PostState, (Post.fillOutdoor cs (Post.fillIndoor cs s i) o).lastOut = s.lastOut := by
    intro s
    unfold Post.fillOutdoor Post.fillIndoor
    split_ifs <;> rfl
  unfold Post.fusePositions
  dsimp only
  rw [e1, e2]
  exact ⟨rfl, rfl, by rw [e3]; exact hl⟩

/-- The client with the projection. -/
noncomputable def withGraph (D : ℝ) (c : Cfg) : Cfg := { c with cs := onto D c.cs }

variable {c : Cfg}

theorem level_mem (hc : Client ls c) {id : String} {u : Level} (h : Levels.level c.levels id = some u) : u ∈ ls ∧ u.id = id := by
  rw [hc.parts.levels, (C12_lookup ls id).2.2.1] at h
  exact ⟨List.mem_of_find?_eq_some h, by simpa using List.find?_some h⟩

theorem outdoor_moved (col : LevelCollector) (st : Estim.OutdoorState) (ts : Int) (sensor : SensorMeasurement) (nmea : NmeaMeasurement)
    (flag : Bool) : Estim.outdoorPosition (onto D cs) col st ts sensor nmea flag = Estim.outdoorPosition cs col st ts sensor nmea flag := by
  have hl : ∀ st g sats ls, Estim.outdoorLevels (onto D cs) st g sats ls = Estim.outdoorLevels cs st g sats ls := by
    intro st g sats ls
    induction ls with
    | nil => rfl
    | cons l ls ih =>
      rw [Estim.outdoorLevels, Estim.outdoorLevels, ih]
      rfl
  have he : Estim.extractGpsPosition (onto D cs) ts sensor = Estim.extractGpsPosition cs ts sensor := rfl
  unfold Estim.outdoorPosition
  rw [he]
  cases Estim.extractGpsPosition cs ts sensor with
  | none => rfl
  | some g => exact hl _ _ _ _

theorem sense_moved {s t : State} (h : MovedState ls D s t) (m : Measurement) : sense (withGraph D c) t m = sense c s m := by
  rw [h.rest]
  unfold sense
  have e : (withGraph D c).cs = onto D c.cs := rfl
  simp only [e, outdoor_moved]
  rfl

/-- What is known about the places after one measurement. -/
structure MovedLocated (ls : List Level) (D : ℝ) (x y : Located) : Prop where
  state : MovedState ls D x.state y.state
  status : y.status = x.status
  azimuth : y.azimuth = x.azimuth

theorem locate_moved (hc : Client ls c) (hg : c.cs.useGraphProjection = false) (hs : c.cs.useStops = false) {s t : State}
    (h : MovedState ls D s t) {x : Sensed} (ho : Gnss x.outdoor.last) (hp : Gnss x.outdoorPos) :
    Rel (MovedLocated ls D) (locate c s x) (locate (withGraph D c) t x) := by
  obtain ⟨h1, h2, h3, h4⟩ := h
  generalize t.post = post at h1 h2
  generalize t.position = pos at h1 h3
  subst h1
  unfold locate
  dsimp only
  have e1 : timedOutLevel (withGraph D c) x = timedOutLevel c x := rfl
  rw [e1]
  show Rel _ _ (if hasLevel c.levels (timedOutLevel c x) then _ else _)
  by_cases hl : hasLevel c.levels (timedOutLevel c x) = true
  · rw [if_pos hl, if_pos hl]
    have e2 : (withGraph D c).levels = c.levels := rfl
    rw [e2]
    cases hv : Levels.level c.levels (timedOutLevel c x) with
    | none => trivial
    | some u =>
      obtain ⟨hu, hid⟩ := level_mem hc hv
      show Rel _ (locateIndoor c s x u) (locateIndoor (withGraph D c) _ x u)
      unfold locateIndoor
      have e3 : ∀ p l u r, indoorPosition (withGraph D c) p l u r = indoorPosition c p l u r := fun _ _ _ _ => rfl
      dsimp only
      rw [e3]
      refine rel_andThen (rel_eq _) ?_
      rintro i _ rfl
      obtain ⟨f1, f2⟩ := fuse_moved (cs := c.cs) (D := D) h2 x.pre.currentTs i.2.1 x.outdoorPos i.1
      have e4 : (withGraph D c).cs = onto D c.cs := rfl
      rw [e4, f1]
      refine rel_andThen (rel_eq _) ?_
      rintro hh _ rfl
      refine rel_andThen (processed_moved hg hs hu (hc.map.graph u hu) _ f2 _ _ _) ?_
      rintro p q ⟨g1, g2⟩
      exact ⟨⟨rfl, g2, g1, ho⟩, rfl, rfl⟩
  · rw [if_neg hl, if_neg hl]
    split_ifs
    · exact ⟨⟨rfl, h2, .inl ⟨rfl, hp⟩, ho⟩, rfl, rfl⟩
    · exact ⟨⟨rfl, h2, h3, ho⟩, rfl, rfl⟩

end Verif.Project
