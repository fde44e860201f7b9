import Verif.Checked.Ops

/-!
# Lemmas about the checked operations
-/

namespace Verif.Checked

theorem safe_zero : Safe 0 := by unfold Safe; omega
theorem safe_neg_one : Safe (-1) := by unfold Safe; omega

theorem sub_eq {a b : Int} (ha : Safe a) (hb : Safe b) : sub a b = some (a - b) := by
  unfold sub
  rw [if_pos]
  unfold Safe at ha hb
  unfold InLong
  omega

theorem safe_max {a b : Int} (ha : Safe a) (hb : Safe b) : Safe (max a b) := by
  rcases max_choice a b with h | h <;> rw [h] <;> assumption

theorem div_eq {x y : ℝ} (h : y ≠ 0) : div x y = some (x ÷ y) := by
  unfold div; rw [if_neg h, divide_eq h]

theorem div_eq' {x y : ℝ} (h : y ≠ 0) : div x y = some (x / y) := by
  unfold div; rw [if_neg h]

theorem sqrt_eq {x : ℝ} (h : 0 ≤ x) : sqrt x = some (Real.sqrt x) := if_neg (not_lt.mpr h)

theorem sqrt_eq' {x : ℝ} (h : 0 ≤ x) : sqrt x = some (root x) := by rw [root_eq h]; exact sqrt_eq h

theorem log_eq {x : ℝ} (h : 0 < x) : log x = some (logarithm x) := by
  unfold log; rw [if_neg (not_le.mpr h), logarithm_eq h]

theorem asin_eq {x : ℝ} (h : |x| ≤ 1) : asin x = some (Verif.asin x) := by
  unfold asin; rw [if_pos h, Verif.asin_eq h]

@[simp] theorem bind2_none {α β : Type} (f : α → Option (Option β)) : bind2 (some none) f = some none := rfl
@[simp] theorem bind2_some {α β : Type} (a : α) (f : α → Option (Option β)) : bind2 (some (some a)) f = f a := rfl

theorem bind2_eq {α β : Type} {x : Option (Option α)} {x' : Option α} {f : α → Option (Option β)} {g : α → Option β}
    (hx : x = some x') (h : ∀ a, x' = some a → f a = some (g a)) : bind2 x f = some (x'.bind g) := by
  subst hx
  cases x' with
  | none => rfl
  | some a => simpa using h a rfl

theorem fold2_eq {α β : Type} {f : α → β → Option (Option α)} {g : α → β → Option α} (l : List β) (a : α)
    (h : ∀ a, ∀ b ∈ l, f a b = some (g a b)) : fold2 f a l = some (l.foldlM g a) := by
  induction l generalizing a with
  | nil => rfl
  | cons b l ih =>
    simp only [fold2, List.foldlM_cons]
    exact bind2_eq (h a b List.mem_cons_self) (fun a' _ => ih a' (fun a b hb => h a b (List.mem_cons_of_mem _ hb)))

theorem map2_eq {α β : Type} {f : α → Option (Option β)} {g : α → Option β} (l : List α)
    (h : ∀ a ∈ l, f a = some (g a)) : map2 f l = some (l.mapM g) := by
  induction l with
  | nil => rfl
  | cons a l ih =>
    simp only [map2, List.mapM_cons]
    refine bind2_eq (h a List.mem_cons_self) (fun b _ => ?_)
    exact bind2_eq (ih (fun a ha => h a (List.mem_cons_of_mem _ ha))) (fun bs _ => rfl)

theorem foldlM_eq {α β : Type} {f : α → β → Option α} {g : α → β → α} (l : List β) (a : α)
    (h : ∀ a, ∀ b ∈ l, f a b = some (g a b)) : l.foldlM f a = some (l.foldl g a) := by
  induction l generalizing a with
  | nil => rfl
  | cons b l ih =>
    rw [List.foldlM_cons, h a b List.mem_cons_self, List.foldl_cons]
    exact ih _ (fun a b hb => h a b (List.mem_cons_of_mem _ hb))

theorem mapM_eq {α β : Type} {f : α → Option β} {g : α → β} (l : List α)
    (h : ∀ a ∈ l, f a = some (g a)) : l.mapM f = some (l.map g) := by
  induction l with
  | nil => rfl
  | cons a l ih =>
    rw [List.mapM_cons, h a List.mem_cons_self, ih (fun a ha => h a (List.mem_cons_of_mem _ ha))]
    rfl

end Verif.Checked
