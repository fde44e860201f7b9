import Verif.Triang.DelaunayProps

/-!
# C154: the triangles do not depend on the order of the vertices
-/

namespace Verif.Triang

/-- No circle with none of these vertices inside it passes through four of them. -/
def NoFourOnCircle (U : List Vertex) : Prop :=
  ∀ ox oy r2 (l : List Vertex), (∀ v ∈ U, r2 ≤ dist2 ox oy v) → l.Nodup → (∀ v ∈ l, v ∈ U ∧ dist2 ox oy v = r2) → l.length ≤ 3

/-- The vertices are in general position: no circle with none of them and none of the corners of the triangle the code starts
with inside it passes through four of these points. -/
def GeneralPosition (vertices : List Vertex) : Prop :=
  ∀ x1 x2 y1 y2, Box vertices x1 x2 y1 y2 → NoFourOnCircle (points vertices x1 x2 y1 y2)

theorem box_unique {vs : List Vertex} {x1 x2 y1 y2 x1' x2' y1' y2' : ℝ} (h : Box vs x1 x2 y1 y2) (h' : Box vs x1' x2' y1' y2') :
    x1 = x1' ∧ x2 = x2' ∧ y1 = y1' ∧ y2 = y2' := by
  obtain ⟨a, ha, ea⟩ := h.atLeft
  obtain ⟨b, hb, eb⟩ := h.atRight
  obtain ⟨c, hc, ec⟩ := h.atDown
  obtain ⟨d, hd, ed⟩ := h.atUp
  obtain ⟨a', ha', ea'⟩ := h'.atLeft
  obtain ⟨b', hb', eb'⟩ := h'.atRight
  obtain ⟨c', hc', ec'⟩ := h'.atDown
  obtain ⟨d', hd', ed'⟩ := h'.atUp
  refine ⟨?_, ?_, ?_, ?_⟩
  · have := h'.left a ha; have := h.left a' ha'; linarith
  · have := h'.right b hb; have := h.right b' hb'; linarith
  · have := h'.down c hc; have := h.down c' hc'; linarith
  · have := h'.up d hd; have := h.up d' hd'; linarith

theorem box_of_mem {vs vs' : List Vertex} (hp : ∀ v, v ∈ vs' ↔ v ∈ vs) {x1 x2 y1 y2 : ℝ} (h : Box vs' x1 x2 y1 y2) :
    Box vs x1 x2 y1 y2 := by
  obtain ⟨h1, h2, h3, h4, h5, h6, h7, h8⟩ := h
  simp only [hp] at *
  exact ⟨h1, h2, h3, h4, h5, h6, h7, h8⟩

theorem input_of_mem {vs vs' : List Vertex} (hp : ∀ v, v ∈ vs' ↔ v ∈ vs) (h : Input vs) : Input vs' := by
  obtain ⟨h1, h2, h3⟩ := h
  refine ⟨?_, ?_, ?_⟩
  · intro u hu w hw
    exact h1 u ((hp u).mp hu) w ((hp w).mp hw)
  · intro v hv
    exact h2 v ((hp v).mp hv)
  · intro v hv
    exact h3 v ((hp v).mp hv)

theorem general_of_mem {vs vs' : List Vertex} (hp : ∀ v, v ∈ vs' ↔ v ∈ vs) (h : GeneralPosition vs) : GeneralPosition vs' := by
  intro x1 x2 y1 y2 hb ox oy r2 l he hn hl
  have hq : ∀ q, q ∈ points vs' x1 x2 y1 y2 ↔ q ∈ points vs x1 x2 y1 y2 := by
    intro q
    unfold points
    rw [List.mem_append, List.mem_append, hp]
  exact h x1 x2 y1 y2 (box_of_mem hp hb) ox oy r2 l (fun v hv => he v ((hq v).mpr hv)) hn
    (fun v hv => ⟨(hq v).mp (hl v hv).1, (hl v hv).2⟩)

/-- **C154.** The order in which the vertices are given does not matter, and neither do the `std::sort`s: with vertices in general
position, every triangle found for one order is found for the other one. -/
theorem C154_triangles (s s' : Sorts) (hE : StdSort Edge.lt s.edges) (hT : ∀ l, (s.triangles l).Perm l)
    (hE' : StdSort Edge.lt s'.edges) (hT' : ∀ l, (s'.triangles l).Perm l) (vertices vertices' : List Vertex)
    (h : Input vertices) (hgen : GeneralPosition vertices) (hperm : vertices'.Perm vertices) (maxedge : ℝ)
    (t : Triangle) (ht : t ∈ triangulateVertices s vertices maxedge) :
    ∃ u ∈ triangulateVertices s' vertices' maxedge, u.corners.Perm t.corners := by
  have hp : ∀ v, v ∈ vertices' ↔ v ∈ vertices := fun v => hperm.mem_iff
  have h3 : 3 ≤ vertices.length := by
    by_contra h3
    rw [result_nil s h3] at ht
    simp at ht
  obtain ⟨-, hout⟩ := C48_output s hE.perm hT vertices maxedge
  obtain ⟨-, hl1, hl2, hl3, -⟩ := hout t ht
  obtain ⟨x1, x2, y1, y2, ts, hb, hdel, -, hres⟩ := result_run s hE hT h h3 maxedge
  obtain ⟨ht, hd⟩ := List.mem_filter.mp (hres.mem_iff.mp ht)
  have hc := kept_corner (hdel.corners t ht) (by simpa using hd)
  obtain ⟨ha, ox, oy, r2, hcir, he⟩ := hdel.empty t ht
  refine complete_points s' hE' hT' vertices' (input_of_mem hp h) maxedge t (fun w hw => (hp w).mpr (hc w hw)) ha ⟨hl1, hl2, hl3⟩
    ox oy r2 hcir ?_
  intro x1' x2' y1' y2' hb' q hq hn
  obtain ⟨e1, e2, e3, e4⟩ := box_unique hb (box_of_mem hp hb')
  subst e1 e2 e3 e4
  have hq' : q ∈ points vertices x1 x2 y1 y2 := by
    rcases List.mem_append.mp hq with h | h
    · exact List.mem_append.mpr (.inl h)
    · exact List.mem_append.mpr (.inr ((hp q).mp h))
  refine lt_of_le_of_ne (he q hq') (fun heq => ?_)
  have hpr := hdel.proper t ht
  have h12 : t.a ≠ t.b := fun h => hpr.1.1 (by rw [h])
  have h23 : t.b ≠ t.c := fun h => hpr.2.1.1 (by rw [h])
  have h13 : t.a ≠ t.c := fun h => hpr.2.2.1 (by rw [h])
  have hnd : t.corners.Nodup := by simp [Triangle.corners, h12, h23, h13]
  have := hgen x1 x2 y1 y2 hb ox oy r2 (q :: t.corners) he (List.nodup_cons.mpr ⟨hn, hnd⟩) (by
    intro v hv
    rcases List.mem_cons.mp hv with rfl | hv
    · exact ⟨hq', heq.symm⟩
    · exact ⟨hdel.corners t ht v hv, circle_corner hcir hv⟩)
  simp [Triangle.corners] at this

end Verif.Triang
