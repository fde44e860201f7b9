import Verif.Project.Client
import Verif.Nav.ZoneProps

/-!
# C134: what the projection onto the graph changes
-/

namespace Verif.Project

open Verif Verif.Levels Verif.Nav
open Verif.Geo (XYPoint)
open Verif.Knn (Result)

/-- **C134.** Take a client without stops and without the projection onto the graph, and the client that is made from the same map and
settings with the projection, for places nearer than `D`.  For every history of calls the answers go side by side: the same messages
are located, on the same floors, with the same radius, altitude, orientation and provider; only the places differ, and a place that
is shown on a floor is replaced by the place to which the graph of the floor draws it. -/
theorem C134_projection {ls : List Level} {c d : Cfg} (hc : Client ls c) {perLevel : List (String × Estim.LevelSettings)}
    (h1 : mkCfg c.env (collect ls) c.cs perLevel = some c) {D : ℝ} (h2 : mkCfg c.env (collect ls) (onto D c.cs) perLevel = some d)
    (hg : c.cs.useGraphProjection = false) (hs : c.cs.useStops = false) (g : Garbage) (calls : List (List Measurement)) :
    ∃ s outs s' outs', navigateAll c (init c g) calls = .ok (s, outs) ∧ navigateAll d (init d g) calls = .ok (s', outs') ∧
      List.Forall₂ (Beside ls D) outs outs' := by
  obtain ⟨s, outs, h, -⟩ := C79_total hc g calls
  have hd := mkCfg_moved h1 h2
  subst hd
  have hr := all_moved (D := D) hc hg hs calls (init_moved (c := c) g)
  rw [h] at hr
  cases hn : navigateAll (withGraph D c) (init (withGraph D c) g) calls with
  | throws => rw [hn] at hr; exact hr.elim
  | undefined => rw [hn] at hr; exact hr.elim
  | ok r =>
    rw [hn] at hr
    obtain ⟨-, hr⟩ := hr
    refine ⟨s, outs, r.1, r.2, h, rfl, ?_⟩
    have hall := (C63_outputs hc g calls h).1
    dsimp only at hr
    clear hn h
    generalize r.2 = outs' at hr
    induction hr with
    | nil => exact .nil
    | cons hab _ ih =>
      refine .cons ?_ (ih fun o ho => hall o (List.mem_cons_of_mem _ ho))
      obtain ⟨hab, hdbg⟩ := hab
      refine ⟨hdbg, hab.same, hab.blank, ?_⟩
      intro hok
      rcases hall _ List.mem_cons_self with ⟨-, l, hl, _, _, _, _, hid, -⟩ | ⟨hne, -⟩
      · obtain ⟨a, b, hp, hrel⟩ := hab.place hok
        have hv : Levels.level c.levels l.id = some l := by rw [hc.parts.levels]; exact level_of_mem hc.map.nodup hl
        obtain ⟨k1, k2⟩ := hp l (by rw [hid]; exact hc.map.named l hl) (by rw [hid]; exact hv)
        exact ⟨l, hl, hid, a, b, k1, k2, hrel⟩
      · rw [hok] at hne
        rcases hne with h | h | h <;> cases h

/-- The distance of two places is moved by at most 15 mm. -/
theorem shown_near (u : Level) (p q : XYPoint) : Geometry.dist (shown u p) (shown u q) ≤ Geometry.dist p q + 15 / 1000 := by
  have ax := Post.fit_lip u.geometry.boundingBox.minCorner.x u.geometry.boundingBox.maxCorner.x p.x q.x
  have ay := Post.fit_lip u.geometry.boundingBox.minCorner.y u.geometry.boundingBox.maxCorner.y p.y q.y
  unfold Geometry.dist Geometry.sqDist
  change |(shown u p).x - (shown u q).x| ≤ _ at ax
  change |(shown u p).y - (shown u q).y| ≤ _ at ay
  rw [← sq_abs ((shown u p).x - (shown u q).x), ← sq_abs ((shown u p).y - (shown u q).y), ← sq_abs (p.x - q.x), ← sq_abs (p.y - q.y)]
  have n1 := abs_nonneg (p.x - q.x)
  have n2 := abs_nonneg (p.y - q.y)
  have n3 := abs_nonneg ((shown u p).x - (shown u q).x)
  have n4 := abs_nonneg ((shown u p).y - (shown u q).y)
  generalize |p.x - q.x| = a at *
  generalize |p.y - q.y| = b at *
  generalize |(shown u p).x - (shown u q).x| = c at *
  generalize |(shown u p).y - (shown u q).y| = d at *
  set D := Real.sqrt (a ^ 2 + b ^ 2) with hD
  have hD0 : 0 ≤ D := Real.sqrt_nonneg _
  have hDs : D ^ 2 = a ^ 2 + b ^ 2 := Real.sq_sqrt (by positivity)
  have hab : a + b ≤ 3 / 2 * D := by
    refine abs_le_of_sq_le_sq' ?_ (by positivity) |>.2
    nlinarith [sq_nonneg (a - b)]
  rw [show D + 15 / 1000 = Real.sqrt ((D + 15 / 1000) ^ 2) from (Real.sqrt_sq (by positivity)).symm]
  refine Real.sqrt_le_sqrt ?_
  nlinarith

/-- **C134.** So no place moves by more than `D` metres and the rounding. -/
theorem C134_near {ls : List Level} {c d : Cfg} (hc : Client ls c) {perLevel : List (String × Estim.LevelSettings)}
    (h1 : mkCfg c.env (collect ls) c.cs perLevel = some c) {D : ℝ} (h2 : mkCfg c.env (collect ls) (onto D c.cs) perLevel = some d)
    (hg : c.cs.useGraphProjection = false) (hs : c.cs.useStops = false) (g : Garbage) (calls : List (List Measurement)) :
    ∃ s outs s' outs', navigateAll c (init c g) calls = .ok (s, outs) ∧ navigateAll d (init d g) calls = .ok (s', outs') ∧
      List.Forall₂ (fun o o' => o.1.status = .OK → ∃ l ∈ ls, o.1.posLevel = l.id ∧ o'.1.posLevel = l.id ∧ ∃ a b : XYPoint,
        Geo.localToGps a l.bindingPoint = ⟨o.1.posLatitude, o.1.posLongitude⟩ ∧
        Geo.localToGps b l.bindingPoint = ⟨o'.1.posLatitude, o'.1.posLongitude⟩ ∧ Geometry.dist a b ≤ max D 0 + 15 / 1000) outs outs' := by
  obtain ⟨s, outs, s', outs', e1, e2, hf⟩ := C134_projection hc h1 h2 hg hs g calls
  refine ⟨s, outs, s', outs', e1, e2, hf.imp ?_⟩
  intro o o' ho hok
  obtain ⟨l, hl, hid, a, b, k1, k2, k3⟩ := ho.place hok
  refine ⟨l, hl, hid, by rw [ho.same]; exact hid, a, b, k1, k2, ?_⟩
  have hz : ∀ p : XYPoint, Geometry.dist p p = 0 := by intro p; simp [Geometry.dist, Geometry.sqDist]
  rcases k3 with ⟨-, rfl⟩ | ⟨u, hu, p, q, rfl, rfl, hd⟩
  · rw [hz]
    have := le_max_right D 0
    linarith
  · refine (shown_near u p q).trans ?_
    obtain ⟨ops, ho⟩ := hc.map.graph u hu
    rcases hd ops ho with ⟨-, h, -⟩ | ⟨rfl, -⟩
    · have := le_max_left D 0
      linarith
    · rw [hz]
      have := le_max_right D 0
      linarith

/-- **C134.** In a building with one floor it is that floor and its graph. -/
theorem C134_one_floor {lv : Level} {o o' : Output × DebugState} {D : ℝ} (h : Beside [lv] D o o') (hok : o.1.status = .OK)
    (hp : o.1.provider ≠ some .GNSS) : ∃ p q, Drawn lv D p q ∧
      Geo.localToGps (shown lv p) lv.bindingPoint = ⟨o.1.posLatitude, o.1.posLongitude⟩ ∧
      Geo.localToGps (shown lv q) lv.bindingPoint = ⟨o'.1.posLatitude, o'.1.posLongitude⟩ := by
  obtain ⟨l, hl, -, a, b, k1, k2, k3⟩ := h.place hok
  rw [List.mem_singleton] at hl
  subst hl
  rcases k3 with ⟨h, -⟩ | ⟨u, hu, p, q, rfl, rfl, hd⟩
  · exact absurd h hp
  · rw [List.mem_singleton] at hu
    subst hu
    exact ⟨p, q, hd, k1, k2⟩

end Verif.Project
