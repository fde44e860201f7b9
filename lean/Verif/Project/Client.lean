import Verif.Project.Lemmas
import Verif.Nav.Props

/-!
# C134: the two clients, call by call
-/

namespace Verif.Project

open Verif Verif.Levels Verif.Nav
open Verif.Geo (XYPoint)
open Verif.Knn (Result)
open Verif.Bias (Rel rel_andThen rel_eq)

variable {D : ℝ} {ls : List Level} {c : Cfg}

/-- Two outputs; the floor is that of the map that has the reported id. -/
structure MovedOut (ls : List Level) (D : ℝ) (c : Cfg) (o o' : Output) : Prop where
  same : o' = { o with posLatitude := o'.posLatitude, posLongitude := o'.posLongitude }
  blank : o.status ≠ .OK → o' = o
  place : o.status = .OK → ∃ a b : XYPoint,
    (∀ l, o.posLevel ≠ "" → Levels.level c.levels o.posLevel = some l →
      Geo.localToGps a l.bindingPoint = ⟨o.posLatitude, o.posLongitude⟩ ∧
      Geo.localToGps b l.bindingPoint = ⟨o'.posLatitude, o'.posLongitude⟩) ∧
    ((o.provider = some .GNSS ∧ b = a) ∨ ∃ u ∈ ls, ∃ p q, a = shown u p ∧ b = shown u q ∧ Drawn u D p q)

theorem shown_eq (u : Level) (p : Position) : (Post.fitInBox u.geometry.boundingBox p).toXY = shown u p.toXY := rfl

theorem report_moved (x : Sensed) {l l' : Located} (h : MovedLocated ls D l l') :
    Rel (MovedOut ls D c) (report c x l) (report (withGraph D c) x l') := by
  have hm := h.state.position
  have hp := movedPos_moved hm
  unfold Moved at hp
  unfold report
  rw [h.status, h.azimuth]
  generalize l.state.position = p at hm hp
  generalize l'.state.position = p' at hm hp
  have f1 : p'.isEmpty = p.isEmpty := by rw [hp]
  have f2 : p'.levelId = p.levelId := by rw [hp]
  have f3 : p'.deviationM = p.deviationM := by rw [hp]
  have f4 : p'.provider = p.provider := by rw [hp]
  have f5 : (withGraph D c).levels = c.levels := rfl
  have f6 : ∀ level, altitudeOf (withGraph D c) level x.radio = altitudeOf c level x.radio := fun _ => rfl
  dsimp only
  rw [f1, f2, f3, f4, f5]
  have hplace : p.isEmpty = false → (p.provider = .GNSS ∧ p'.toXY = p.toXY) ∨
      ∃ u ∈ ls, ∃ a b, p.toXY = shown u a ∧ p'.toXY = shown u b ∧ Drawn u D a b := by
    intro he
    rcases hm with ⟨rfl, hg⟩ | ⟨u, hu, a, b, rfl, rfl, -, hd⟩
    · exact .inl ⟨hg he, rfl⟩
    · exact .inr ⟨u, hu, a.toXY, b.toXY, rfl, rfl, hd⟩
  by_cases he : p.isEmpty = true
  · rw [if_pos he, if_pos he]
    refine ⟨rfl, fun _ => rfl, ?_⟩
    intro hok
    exfalso
    dsimp only at hok
    split_ifs at hok with h0
    exact h0 hok
  · rw [if_neg he, if_neg he]
    have hpl := hplace (by simpa using he)
    by_cases hl : p.levelId ≠ ""
    · rw [if_pos hl, if_pos hl]
      cases hv : Levels.level c.levels p.levelId with
      | none => trivial
      | some u =>
        have eo : ∀ f : Level → Result Output, andThen (orThrow (some u)) f = f u := fun _ => rfl
        rw [eo, eo, f6]
        refine rel_andThen (rel_eq _) ?_
        rintro alt _ rfl
        refine ⟨rfl, fun hn => absurd rfl hn, ?_⟩
        intro _
        refine ⟨p.toXY, p'.toXY, ?_, ?_⟩
        · intro v _ hv'
          dsimp only at hv'
          rw [hv, Option.some.injEq] at hv'
          subst hv'
          exact ⟨rfl, rfl⟩
        · rcases hpl with ⟨h1, h2⟩ | h1
          · exact .inl ⟨by rw [h1], h2⟩
          · exact .inr h1
    · rw [if_neg hl, if_neg hl]
      refine ⟨rfl, fun _ => rfl, ?_⟩
      intro _
      refine ⟨p.toXY, p'.toXY, fun v hne => absurd hne hl, ?_⟩
      rcases hpl with ⟨h1, h2⟩ | h1
      · exact .inl ⟨by rw [h1], h2⟩
      · exact .inr h1

/-- Two answers. -/
def MovedAnswer (ls : List Level) (D : ℝ) (c : Cfg) (o o' : Output × DebugState) : Prop := MovedOut ls D c o.1 o'.1 ∧ o'.2 = o.2

theorem debug_moved (x : Sensed) {s t : State} (h : MovedState ls D s t) : debugState x t = debugState x s := by
  have h1 : t.post.indoorPos = s.post.indoorPos := by rw [h.post.rest]
  have h2 : t.post.outdoorPos = s.post.outdoorPos := by rw [h.post.rest]
  unfold debugState
  rw [h1, h2]

variable (hc : Client ls c) (hg : c.cs.useGraphProjection = false) (hs : c.cs.useStops = false)

include hc hg hs

theorem step_moved {s t : State} (h : MovedState ls D s t) (m : Measurement) :
    Rel (fun r r' => MovedState ls D r.1 r'.1 ∧ MovedAnswer ls D c r.2 r'.2) (step c s m) (step (withGraph D c) t m) := by
  unfold step
  rw [sense_moved h]
  cases hx : sense c s m with
  | throws => trivial
  | undefined => trivial
  | ok x =>
    obtain ⟨h1, h2⟩ := gnss_sense h.gnss hx
    show Rel _ (andThen (locate c s x) _) (andThen (locate (withGraph D c) t x) _)
    refine rel_andThen (locate_moved hc hg hs h h2 h1) ?_
    intro l l' hl
    refine rel_andThen (report_moved (c := c) x hl) ?_
    intro o o' ho
    exact ⟨hl.state, ho, debug_moved x hl.state⟩

theorem loop_moved (ms : List Measurement) {s t : State} (h : MovedState ls D s t) (u : Int) :
    Rel (fun r r' => MovedState ls D r.1 r'.1 ∧ List.Forall₂ (MovedAnswer ls D c) r.2 r'.2) (loop c s u ms) (loop (withGraph D c) t u ms) := by
  induction ms generalizing s t u with
  | nil => exact ⟨h, .nil⟩
  | cons m ms ih =>
    rw [loop, loop]
    split_ifs
    · exact ih h u
    · refine rel_andThen (step_moved hc hg hs h m) ?_
      rintro r r' ⟨h1, h2⟩
      refine rel_andThen (ih h1 m.ts) ?_
      rintro q q' ⟨h3, h4⟩
      exact ⟨h3, .cons h2 h4⟩

theorem all_moved (calls : List (List Measurement)) {s t : State} (h : MovedState ls D s t) :
    Rel (fun r r' => MovedState ls D r.1 r'.1 ∧ List.Forall₂ (MovedAnswer ls D c) r.2 r'.2) (navigateAll c s calls)
      (navigateAll (withGraph D c) t calls) := by
  induction calls generalizing s t with
  | nil => exact ⟨h, .nil⟩
  | cons ms calls ih =>
    rw [navigateAll, navigateAll]
    have h0 : Rel (fun r r' => MovedState ls D r.1 r'.1 ∧ List.Forall₂ (MovedAnswer ls D c) r.2 r'.2) (navigate c s ms)
        (navigate (withGraph D c) t ms) := by
      cases ms with
      | nil => exact ⟨h, .nil⟩
      | cons m ms => exact loop_moved hc hg hs (m :: ms) h m.ts
    refine rel_andThen h0 ?_
    rintro r r' ⟨h1, h2⟩
    refine rel_andThen (ih h1) ?_
    rintro q q' ⟨h3, h4⟩
    exact ⟨h3, List.rel_append h2 h4⟩

omit hc hg hs in
theorem init_moved (g : Garbage) : MovedState ls D (init c g) (init (withGraph D c) g) :=
  ⟨rfl, ⟨rfl, rfl⟩, .inl ⟨rfl, fun h => by cases h⟩, fun h => by cases h⟩

omit hc hg hs in
theorem mkCfg_moved {env : Env} {col : LevelCollector} {cs : CommonSettings} {p : List (String × Estim.LevelSettings)} {c d : Cfg}
    (h1 : mkCfg env col cs p = some c) (h2 : mkCfg env col (onto D cs) p = some d) : d = withGraph D c := by
  have e : mkCfg env col (onto D cs) p = (mkCfg env col cs p).map (withGraph D) := by
    unfold mkCfg
    rw [Option.map_map]
    have : createPositionEstimator env col (onto D cs) p = createPositionEstimator env col cs p := rfl
    rw [this]
    rfl
  rw [e, h1, Option.map_some, Option.some.injEq] at h2
  exact h2.symm

end Verif.Project
