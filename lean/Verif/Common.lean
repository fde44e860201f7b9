import Mathlib.Data.List.Sort
import Mathlib.Order.Basic
import Mathlib.Data.List.Induction
import Mathlib.Data.Real.Basic

/-!
# Vocabulary shared by all parts of the model

* `SortsBy lt s` is the contract of `std::sort` for a comparator `lt`: the output is a permutation
  of the input and no later element is smaller than an earlier one.  Nothing is said about the
  order of equivalent elements, so the (unstable) `std::sort` is covered whatever it does.
* `StdSort lt s` is the same contract for a comparator that is a strict weak order only on some lists: nothing but the
  permutation is promised for the others.
-/

namespace Verif

/-- Contract of `std::sort(begin, end, lt)` (C++ standard, [alg.sort]); a parameter of the model. -/
structure SortsBy {α : Type*} (lt : α → α → Prop) (s : List α → List α) : Prop where
  perm : ∀ l, (s l).Perm l
  sorted : ∀ l, (s l).Pairwise (fun a b => ¬ lt b a)

/-- Insertion sort satisfies the contract of `std::sort`, so the contract is satisfiable. -/
theorem sortsBy_insertionSort {α β : Type*} [LinearOrder β] (f : α → β) :
    SortsBy (fun a b => f a < f b) (List.insertionSort (fun a b => f a ≤ f b)) where
  perm := List.perm_insertionSort _
  sorted l := by
    have : Std.Total (fun a b : α => f a ≤ f b) := ⟨fun a b => le_total _ _⟩
    have : IsTrans α (fun a b : α => f a ≤ f b) := ⟨fun a b c => le_trans⟩
    refine (List.pairwise_insertionSort (fun a b : α => f a ≤ f b) l).imp ?_
    intro a b h
    exact not_lt.mpr h

/-- `lt` is a strict weak order on the elements of `l`, as `std::sort` requires of its comparator (C++ standard,
[alg.sorting]). -/
structure Orders {α : Type*} (lt : α → α → Prop) (l : List α) : Prop where
  irrefl : ∀ a ∈ l, ¬ lt a a
  trans : ∀ a ∈ l, ∀ b ∈ l, ∀ c ∈ l, lt a b → lt b c → lt a c
  weak : ∀ a ∈ l, ∀ b ∈ l, ∀ c ∈ l, ¬ lt a b → ¬ lt b c → ¬ lt a c

/-- Contract of `std::sort(begin, end, lt)` where `lt` need not order every list: the output is a permutation, and sorted if
`lt` is a strict weak order on the elements. -/
structure StdSort {α : Type*} (lt : α → α → Prop) (s : List α → List α) : Prop where
  perm : ∀ l, (s l).Perm l
  sorted : ∀ l, Orders lt l → (s l).Pairwise (fun a b => ¬ lt b a)

/-- This contract can be met for every comparator. -/
theorem stdSort_exists {α : Type*} (lt : α → α → Prop) : ∃ s, StdSort lt s := by
  classical
  have h : ∀ l : List α, ∃ l' : List α, l'.Perm l ∧ (Orders lt l → l'.Pairwise (fun a b => ¬ lt b a)) := by
    intro l
    by_cases ho : Orders lt l
    · let r : {x // x ∈ l} → {x // x ∈ l} → Prop := fun a b => ¬ lt b.1 a.1
      have : Std.Total r := ⟨fun a b => by
        by_contra hc
        simp only [r, not_or, not_not] at hc
        exact ho.irrefl a.1 a.2 (ho.trans _ a.2 _ b.2 _ a.2 hc.2 hc.1)⟩
      have : IsTrans _ r := ⟨fun a b c h1 h2 => ho.weak _ c.2 _ b.2 _ a.2 h2 h1⟩
      refine ⟨(l.attach.insertionSort r).map Subtype.val, ?_, fun _ => ?_⟩
      · have := (List.perm_insertionSort r l.attach).map Subtype.val
        rwa [List.attach_map_subtype_val] at this
      · rw [List.pairwise_map]
        exact List.pairwise_insertionSort r l.attach
    · exact ⟨l, List.Perm.refl l, fun h => absurd h ho⟩
  choose s hs using h
  exact ⟨s, fun l => (hs l).1, fun l => (hs l).2⟩

/-- Comparing keys orders. -/
theorem orders_of_key {α β : Type*} [LinearOrder β] {lt : α → α → Prop} {l : List α} (f : α → β)
    (h : ∀ a ∈ l, ∀ b ∈ l, (lt a b ↔ f a < f b)) : Orders lt l where
  irrefl a ha := by rw [h a ha a ha]; exact lt_irrefl _
  trans a ha b hb c hc := by rw [h a ha b hb, h b hb c hc, h a ha c hc]; exact lt_trans
  weak a ha b hb c hc := by rw [h a ha b hb, h b hb c hc, h a ha c hc, not_lt, not_lt, not_lt]; exact fun h1 h2 => h2.trans h1

/-- The result of a "keep the first strictly larger candidate" loop starting from the bound `b0`:
either an element attaining the maximum, first among equals and above the bound, or nothing. -/
def FirstMax {α : Type*} (ok : α → Prop) (cost : α → ℝ) (b0 : ℝ) (l : List α) : Option α → Prop
  | some x => ∃ before after, l = before ++ x :: after ∧ ok x ∧ b0 < cost x ∧
      (∀ k ∈ before, ok k → cost k < cost x) ∧ ∀ k ∈ after, ok k → cost k ≤ cost x
  | none => ∀ k ∈ l, ok k → cost k ≤ b0

/-- The loop computes the first maximum. -/
theorem firstMax_fold {α β : Type*} (ok : α → Prop) [DecidablePred ok] (cost : α → ℝ) (name : α → β) (b0 : ℝ) (n0 : β) (l : List α) :
    ∃ r, FirstMax ok cost b0 l r ∧
      l.foldl (fun b x => if ok x then (if cost x > b.1 then (cost x, name x) else b) else b) (b0, n0) =
        (match r with | some x => (cost x, name x) | none => (b0, n0)) := by
  induction l using List.reverseRecOn with
  | nil => exact ⟨none, by simp [FirstMax], rfl⟩
  | append_singleton l a ih =>
    obtain ⟨r, hr, hf⟩ := ih
    rw [List.foldl_append, hf]
    simp only [List.foldl_cons, List.foldl_nil]
    cases r with
    | none =>
      simp only [FirstMax] at hr
      by_cases h1 : ok a
      · by_cases h2 : cost a > b0
        · refine ⟨some a, ⟨l, [], rfl, h1, h2, fun k hk hok => lt_of_le_of_lt (hr k hk hok) h2, by simp⟩, ?_⟩
          simp [h1, h2]
        · refine ⟨none, ?_, by simp [h1, h2]⟩
          intro k hk hok
          rcases List.mem_append.mp hk with hk | hk
          · exact hr k hk hok
          · rw [List.mem_singleton] at hk; subst hk; exact not_lt.mp h2
      · refine ⟨none, ?_, by simp [h1]⟩
        intro k hk hok
        rcases List.mem_append.mp hk with hk | hk
        · exact hr k hk hok
        · rw [List.mem_singleton] at hk; subst hk; exact absurd hok h1
    | some x =>
      obtain ⟨before, after, hl, hok, hb, hbef, haft⟩ := hr
      by_cases h12 : ok a ∧ cost a > cost x
      · obtain ⟨h1, h2⟩ := h12
        refine ⟨some a, ⟨l, [], rfl, h1, hb.trans h2, ?_, by simp⟩, by simp [h1, h2]⟩
        intro k hk hokk
        rw [hl] at hk
        rcases List.mem_append.mp hk with hk | hk
        · exact (hbef k hk hokk).trans h2
        · rcases List.mem_cons.mp hk with rfl | hk
          · exact h2
          · exact lt_of_le_of_lt (haft k hk hokk) h2
      · refine ⟨some x, ⟨before, after ++ [a], by rw [hl]; simp, hok, hb, hbef, ?_⟩, ?_⟩
        · intro k hk hokk
          rcases List.mem_append.mp hk with hk | hk
          · exact haft k hk hokk
          · rw [List.mem_singleton] at hk; subst hk
            exact not_lt.mp (fun h => h12 ⟨hokk, h⟩)
        · by_cases h1 : ok a
          · have h2 : ¬ cost a > cost x := fun h => h12 ⟨h1, h⟩
            simp [h1, h2]
          · simp [h1]

end Verif
