import Verif.Levels.Model

/-! # Vocabulary and helper lemmas about levels -/

namespace Verif.Levels

open Verif.Geo (XYPoint GeoPoint)

/-- The collector after adding these levels in order (`addGeoLevel` calls that did not throw). -/
def collect (ls : List Level) : LevelCollector := ls.foldl addLevel emptyCollector

theorem collect_snoc (ls : List Level) (l : Level) : collect (ls ++ [l]) = addLevel (collect ls) l := by
  simp [collect]

theorem collect_levels (ls : List Level) : (collect ls).levels = ls := by
  induction ls using List.reverseRecOn with
  | nil => rfl
  | append_singleton ls l ih => rw [collect_snoc]; simp [addLevel, ih]

theorem collect_index (ls : List Level) (id : String) :
    StdMap.find? (collect ls).indices id = ls.findIdx? (fun l => l.id == id) := by
  induction ls using List.reverseRecOn with
  | nil => rfl
  | append_singleton ls l ih =>
    rw [collect_snoc]
    simp only [addLevel, collect_levels]
    rw [StdMap.find?_insert, List.findIdx?_append]
    by_cases h : l.id = id
    · subst h
      rw [if_pos rfl, ih]
      cases hf : ls.findIdx? (fun l' => l'.id == l.id) with
      | none => simp
      | some i => simp
    · rw [if_neg h, ih]
      have : [l].findIdx? (fun l => l.id == id) = none := by simp [h]
      rw [this]; simp

/-- A level with the given id and transmitters and nothing else, for witnesses. -/
def bareLevel (id : String) (txs : List (Transmitter XYZPoint)) : Level :=
  Level.addTransmitters ⟨id, ⟨0, 0⟩, [], mkRadiomap [], ⟨[], ⟨⟨0, 0⟩, ⟨0, 0⟩⟩, []⟩, NavGraph.empty⟩ txs

theorem buildIndex_find (rps : List (ReferencePoint XYPoint)) : ∀ n m id,
    StdMap.find? (buildIndex n m rps) id =
      (StdMap.find? m id).or ((rps.findIdx? (fun rp => rp.id == id)).map (· + n)) := by
  induction rps with
  | nil => intro n m id; simp [buildIndex]
  | cons rp rps ih =>
    intro n m id
    rw [buildIndex, ih, StdMap.find?_insert, List.findIdx?_cons]
    by_cases h : rp.id = id
    · subst h
      rw [if_pos rfl]
      cases StdMap.find? m rp.id <;> simp
    · rw [if_neg h]
      cases StdMap.find? m id <;> simp [h]
      cases rps.findIdx? (fun rp => rp.id == id) <;> simp
      omega

/-- A lawful (if coarse) instance: every box meets every path. -/
def trivialGeometry : BoostGeometry where
  coveredBy path ring := decide (ring.length ≥ path.length)
  intersects path ring := decide (ring.length = path.length)
  correctOuter r := r
  correctInner r := r
  correctRing r := r
  envelope _ := ⟨⟨0, 0⟩, ⟨0, 0⟩⟩
  boxIntersects _ _ := true
  rtreeQuery boxes _ := List.range boxes.length

/-- A geographic box contains a point (latitude first, as in the code). -/
def Box.ContainsGeo (b : Box) (p : GeoPoint) : Prop :=
  min b.minCorner.x b.maxCorner.x ≤ p.latitude ∧ p.latitude ≤ max b.minCorner.x b.maxCorner.x ∧
  min b.minCorner.y b.maxCorner.y ≤ p.longitude ∧ p.longitude ≤ max b.minCorner.y b.maxCorner.y

/-- A planar box contains a point (boundary included). -/
def Box.Contains (b : Box) (q : XYPoint) : Prop :=
  b.minCorner.x ≤ q.x ∧ q.x ≤ b.maxCorner.x ∧ b.minCorner.y ≤ q.y ∧ q.y ≤ b.maxCorner.y

/-- A geographic level around (60, 30) given by its box, for witnesses. -/
def sampleGeoLevel : GeoLevel := ⟨"L", [], [], ⟨[], ⟨⟨60, 30⟩, ⟨61, 32⟩⟩, []⟩, NavGraph.empty, 0⟩

end Verif.Levels
