import Mathlib.Data.List.Sort
import Mathlib.Order.Basic
import Mathlib.Data.String.Basic

/-!
# `std::map`, `std::set` as sorted lists

A `std::map<K, V>` is a list of key/value pairs.  `insert` is `std::map::insert` (an existing entry
wins), `set` is `m[k] = v`, `find?` is `m.find(k)` / `m.at(k)` (`none`: `end()` / throws).
Iteration order is list order, which is ascending in the key (`insert_sorted`, `set_sorted`).
For `std::unordered_map` the iteration order is not used anywhere in the model.
-/

namespace Verif.StdMap

variable {κ ν : Type*} [LinearOrder κ]

/-- `m.find(k)`. -/
def find? : List (κ × ν) → κ → Option ν
  | [], _ => none
  | (k', v) :: m, k => if k' = k then some v else find? m k

/-- Put a pair in front of the first larger key. -/
def insertSorted (k : κ) (v : ν) : List (κ × ν) → List (κ × ν)
  | [] => [(k, v)]
  | (k', v') :: m => if k < k' then (k, v) :: (k', v') :: m else (k', v') :: insertSorted k v m

/-- Overwrite the value stored under `k`. -/
def replace (k : κ) (v : ν) : List (κ × ν) → List (κ × ν)
  | [] => []
  | (k', v') :: m => if k' = k then (k', v) :: m else (k', v') :: replace k v m

/-- `m.insert({k, v})`. -/
def insert (m : List (κ × ν)) (k : κ) (v : ν) : List (κ × ν) :=
  if (find? m k).isSome then m else insertSorted k v m

/-- `m[k] = v`. -/
def set (m : List (κ × ν)) (k : κ) (v : ν) : List (κ × ν) :=
  if (find? m k).isSome then replace k v m else insertSorted k v m

/-- Keys are strictly ascending. -/
def Sorted (m : List (κ × ν)) : Prop := m.Pairwise (fun a b => a.1 < b.1)

@[simp] theorem find?_nil (k : κ) : find? ([] : List (κ × ν)) k = none := rfl

theorem find?_insertSorted (m : List (κ × ν)) (k k' : κ) (v : ν) (h : find? m k = none) :
    find? (insertSorted k v m) k' = if k = k' then some v else find? m k' := by
  induction m with
  | nil => simp [insertSorted, find?]
  | cons p m ih =>
    obtain ⟨k0, v0⟩ := p
    simp only [find?] at h
    split_ifs at h with h0
    unfold insertSorted
    by_cases hlt : k < k0
    · rw [if_pos hlt]; simp only [find?]
    · rw [if_neg hlt]
      simp only [find?]
      rw [ih h]
      by_cases h1 : k0 = k'
      · subst h1
        rw [if_pos rfl, if_neg (fun h => h0 h.symm), if_pos rfl]
      · simp [h1]

theorem find?_replace (m : List (κ × ν)) (k k' : κ) (v : ν) (h : (find? m k).isSome) :
    find? (replace k v m) k' = if k = k' then some v else find? m k' := by
  induction m with
  | nil => simp at h
  | cons p m ih =>
    obtain ⟨k0, v0⟩ := p
    simp only [find?] at h
    unfold replace
    by_cases h0 : k0 = k
    · subst h0
      rw [if_pos rfl]
      simp only [find?]
      by_cases h1 : k0 = k'
      · simp [h1]
      · simp [h1]
    · rw [if_neg h0] at h
      rw [if_neg h0]
      simp only [find?]
      rw [ih h]
      by_cases h1 : k0 = k'
      · subst h1
        rw [if_pos rfl, if_neg (fun h => h0 h.symm), if_pos rfl]
      · simp [h1]

/-- After `insert` the old value of `k` survives if there was one. -/
theorem find?_insert (m : List (κ × ν)) (k k' : κ) (v : ν) :
    find? (insert m k v) k' = if k = k' then some ((find? m k).getD v) else find? m k' := by
  unfold insert
  split_ifs with h h1 h1
  · subst h1
    obtain ⟨w, hw⟩ := Option.isSome_iff_exists.mp h
    simp [hw]
  · rfl
  · subst h1
    have h' : find? m k = none := by simpa using h
    rw [find?_insertSorted _ _ _ _ h', if_pos rfl, h']; rfl
  · rw [find?_insertSorted _ _ _ _ (by simpa using h), if_neg h1]

/-- After `m[k] = v` the value of `k` is `v` and nothing else changed. -/
theorem find?_set (m : List (κ × ν)) (k k' : κ) (v : ν) :
    find? (set m k v) k' = if k = k' then some v else find? m k' := by
  unfold set
  split_ifs with h h1 h1
  · rw [find?_replace _ _ _ _ h, if_pos h1]
  · rw [find?_replace _ _ _ _ h, if_neg h1]
  · rw [find?_insertSorted _ _ _ _ (by simpa using h), if_pos h1]
  · rw [find?_insertSorted _ _ _ _ (by simpa using h), if_neg h1]

theorem find?_isSome_iff (m : List (κ × ν)) (k : κ) : (find? m k).isSome ↔ k ∈ m.map Prod.fst := by
  induction m with
  | nil => simp
  | cons p m ih =>
    obtain ⟨k0, v0⟩ := p
    simp only [find?, List.map_cons, List.mem_cons]
    by_cases h : k0 = k
    · simp [h]
    · rw [if_neg h, ih]
      constructor
      · exact Or.inr
      · rintro (rfl | h')
        · exact absurd rfl h
        · exact h'

theorem mem_of_find? {m : List (κ × ν)} {k : κ} {v : ν} (h : find? m k = some v) : (k, v) ∈ m := by
  induction m with
  | nil => simp at h
  | cons p m ih =>
    obtain ⟨k0, v0⟩ := p
    simp only [find?] at h
    split_ifs at h with h0
    · subst h0; cases h; exact List.mem_cons_self
    · exact List.mem_cons_of_mem _ (ih h)

theorem find?_of_mem {m : List (κ × ν)} (hs : Sorted m) {k : κ} {v : ν} (h : (k, v) ∈ m) :
    find? m k = some v := by
  induction m with
  | nil => cases h
  | cons p m ih =>
    obtain ⟨k0, v0⟩ := p
    obtain ⟨h1, h2⟩ := List.pairwise_cons.mp hs
    simp only [find?]
    rcases List.mem_cons.mp h with h' | h'
    · cases h'; simp
    · have := h1 _ h'
      rw [if_neg (ne_of_lt this)]
      exact ih h2 h'

theorem mem_insertSorted (k : κ) (v : ν) (m : List (κ × ν)) (p : κ × ν) :
    p ∈ insertSorted k v m ↔ p = (k, v) ∨ p ∈ m := by
  induction m with
  | nil => simp [insertSorted]
  | cons q m ih =>
    unfold insertSorted
    split_ifs
    · simp
    · simp only [List.mem_cons, ih]; tauto

theorem insertSorted_sorted (k : κ) (v : ν) (m : List (κ × ν)) (hs : Sorted m)
    (h : find? m k = none) : Sorted (insertSorted k v m) := by
  induction m with
  | nil => simp [insertSorted, Sorted]
  | cons q m ih =>
    obtain ⟨k0, v0⟩ := q
    obtain ⟨h1, h2⟩ := List.pairwise_cons.mp hs
    simp only [find?] at h
    split_ifs at h with h0
    unfold insertSorted
    split_ifs with hlt
    · refine List.pairwise_cons.mpr ⟨?_, hs⟩
      intro b hb
      rcases List.mem_cons.mp hb with rfl | hb
      · exact hlt
      · exact lt_trans hlt (h1 b hb)
    · refine List.pairwise_cons.mpr ⟨?_, ih h2 h⟩
      intro b hb
      rcases (mem_insertSorted k v m b).mp hb with rfl | hb
      · exact lt_of_le_of_ne (not_lt.mp hlt) h0
      · exact h1 b hb

theorem insert_sorted (m : List (κ × ν)) (k : κ) (v : ν) (hs : Sorted m) : Sorted (insert m k v) := by
  unfold insert
  split_ifs with h
  · exact hs
  · exact insertSorted_sorted k v m hs (by simpa using h)

theorem map_fst_replace (k : κ) (v : ν) (m : List (κ × ν)) :
    (replace k v m).map Prod.fst = m.map Prod.fst := by
  induction m with
  | nil => rfl
  | cons q m ih =>
    obtain ⟨k0, v0⟩ := q
    unfold replace
    split_ifs with h
    · simp
    · simp [ih]

theorem set_sorted (m : List (κ × ν)) (k : κ) (v : ν) (hs : Sorted m) : Sorted (set m k v) := by
  unfold set
  split_ifs with h
  · have h1 : ((replace k v m).map Prod.fst).Pairwise (· < ·) := by
      rw [map_fst_replace]; exact List.pairwise_map.mpr hs
    exact List.pairwise_map.mp h1
  · exact insertSorted_sorted k v m hs (by simpa using h)

end Verif.StdMap

namespace Verif.StdSet

variable {κ : Type*} [LinearOrder κ]

/-- `s.insert(x)` for a `std::set`: sorted, an equal element is kept. -/
def insert (x : κ) : List κ → List κ
  | [] => [x]
  | y :: s => if x < y then x :: y :: s else if y < x then y :: insert x s else y :: s

theorem mem_insert (x : κ) (s : List κ) (z : κ) : z ∈ insert x s ↔ z = x ∨ z ∈ s := by
  induction s with
  | nil => simp [insert]
  | cons y s ih =>
    unfold insert
    split_ifs with h1 h2
    · simp
    · simp only [List.mem_cons, ih]; tauto
    · have : x = y := le_antisymm (not_lt.mp h2) (not_lt.mp h1)
      simp [this]

theorem insert_sorted (x : κ) (s : List κ) (hs : s.Pairwise (· < ·)) :
    (insert x s).Pairwise (· < ·) := by
  induction s with
  | nil => simp [insert]
  | cons y s ih =>
    obtain ⟨h1, h2⟩ := List.pairwise_cons.mp hs
    unfold insert
    split_ifs with hxy hyx
    · refine List.pairwise_cons.mpr ⟨?_, hs⟩
      intro b hb
      rcases List.mem_cons.mp hb with rfl | hb
      · exact hxy
      · exact lt_trans hxy (h1 b hb)
    · refine List.pairwise_cons.mpr ⟨?_, ih h2⟩
      intro b hb
      rcases (mem_insert x s b).mp hb with rfl | hb
      · exact hyx
      · exact h1 b hb
    · exact hs

end Verif.StdSet
