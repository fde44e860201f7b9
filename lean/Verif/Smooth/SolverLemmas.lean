import Verif.Smooth.Poly
import Mathlib.Algebra.BigOperators.Intervals
import Mathlib.Algebra.Order.BigOperators.Ring.Finset
import Mathlib.Tactic.LinearCombination
import Mathlib.Tactic.Linarith
import Mathlib.Tactic.FieldSimp
import Mathlib.Data.List.Induction

/-! # Lemmas about `solveLinearSystem` -/

namespace Verif.Smooth

open Finset

/-- `y` solves the system `E = [A, b]`. -/
def Solves (n : ℕ) (E : ℕ → ℕ → ℝ) (y : ℕ → ℝ) : Prop :=
  ∀ r < n, ∑ c ∈ range n, E r c * y c = E r n

/-- Zeros below the diagonal: columns before `k`, and column `k` in the rows before `j`. -/
def Zeros (n : ℕ) (E : ℕ → ℕ → ℝ) (k j : ℕ) : Prop :=
  ∀ c r, c < r → r < n → (c < k ∨ (c = k ∧ r < j)) → E r c = 0

theorem rotate_spec {n k j : ℕ} {E E' : ℕ → ℕ → ℝ} (hkj : k < j) (hj : j < n)
    (hz : Zeros n E k j) (h : rotate n E k j = some E') :
    ∃ cs sn : ℝ, cs * cs + sn * sn = 1 ∧
      (∀ c ≤ n, E' j c = cs * E j c - sn * E k c) ∧
      (∀ c ≤ n, E' k c = sn * E j c + cs * E k c) ∧
      (∀ r, r ≠ j → r ≠ k → E' r = E r) ∧ E' j k = 0 ∧ E' k k ≠ 0 := by
  unfold rotate at h
  dsimp only at h
  set norm := Real.sqrt (E k k * E k k + E j k * E j k) with hn
  by_cases h0 : norm = 0
  · rw [if_pos h0] at h; cases h
  rw [if_neg h0] at h
  injection h with h
  have hsq : norm * norm = E k k * E k k + E j k * E j k :=
    Real.mul_self_sqrt (add_nonneg (mul_self_nonneg _) (mul_self_nonneg _))
  have hkne : k ≠ j := by omega
  refine ⟨E k k / norm, E j k / norm, ?_, ?_, ?_, ?_, ?_, ?_⟩
  · field_simp; linarith [hsq]
  · intro c hc
    rw [← h]
    by_cases hck : k ≤ c
    · simp [hck, Nat.lt_succ_of_le hc]
    · have h1 : E j c = 0 := hz c j (by omega) hj (Or.inl (by omega))
      have h2 : E k c = 0 := hz c k (by omega) (by omega) (Or.inl (by omega))
      simp [hck, h1, h2]
  · intro c hc
    rw [← h]
    by_cases hck : k ≤ c
    · simp [hck, Nat.lt_succ_of_le hc, hkne]
    · have h1 : E j c = 0 := hz c j (by omega) hj (Or.inl (by omega))
      have h2 : E k c = 0 := hz c k (by omega) (by omega) (Or.inl (by omega))
      simp [hck, h1, h2]
  · intro r hr1 hr2
    rw [← h]
    funext i
    simp [hr1, hr2]
  · rw [← h]
    simp only [le_refl, true_and, if_true]
    rw [if_pos (by omega)]
    ring
  · rw [← h]
    simp only [le_refl, true_and, if_true, if_neg hkne]
    rw [if_pos (by omega)]
    have : E j k / norm * E j k + E k k / norm * E k k = norm := by
      field_simp; linarith [hsq]
    rw [this]; exact h0

theorem zeros_rotate {n k j : ℕ} {E E' : ℕ → ℕ → ℝ} (hkj : k < j) (hj : j < n)
    (hz : Zeros n E k j) (h : rotate n E k j = some E') : Zeros n E' k (j + 1) := by
  obtain ⟨cs, sn, -, h1, h2, h3, h4, -⟩ := rotate_spec hkj hj hz h
  intro c r hcr hr hc
  by_cases hrj : r = j
  · subst hrj
    rcases hc with hc | ⟨rfl, -⟩
    · rw [h1 c (by omega), hz c r hcr hr (Or.inl hc), hz c k hc (by omega) (Or.inl hc)]; ring
    · exact h4
  by_cases hrk : r = k
  · subst hrk
    have hc' : c < r := hcr
    rw [h2 c (by omega), hz c j (by omega) hj (Or.inl hc'), hz c r hcr hr (Or.inl hc')]; ring
  rw [h3 r hrj hrk]
  refine hz c r hcr hr ?_
  rcases hc with hc | ⟨rfl, hc⟩
  · exact Or.inl hc
  · exact Or.inr ⟨rfl, by omega⟩

theorem solves_rotate {n k j : ℕ} {E E' : ℕ → ℕ → ℝ} (hkj : k < j) (hj : j < n)
    (hz : Zeros n E k j) (h : rotate n E k j = some E') (y : ℕ → ℝ) :
    Solves n E' y ↔ Solves n E y := by
  obtain ⟨cs, sn, hcs, h1, h2, h3, -, -⟩ := rotate_spec hkj hj hz h
  have s1 : ∑ c ∈ range n, E' j c * y c =
      cs * ∑ c ∈ range n, E j c * y c - sn * ∑ c ∈ range n, E k c * y c := by
    rw [mul_sum, mul_sum, ← sum_sub_distrib]
    refine sum_congr rfl (fun c hc => ?_)
    rw [h1 c (by simp at hc; omega)]; ring
  have s2 : ∑ c ∈ range n, E' k c * y c =
      sn * ∑ c ∈ range n, E j c * y c + cs * ∑ c ∈ range n, E k c * y c := by
    rw [mul_sum, mul_sum, ← sum_add_distrib]
    refine sum_congr rfl (fun c hc => ?_)
    rw [h2 c (by simp at hc; omega)]; ring
  constructor
  · intro hs r hr
    by_cases hrjk : r = j ∨ r = k
    · have e1 := hs j hj
      have e2 := hs k (by omega)
      rw [s1, h1 n le_rfl] at e1
      rw [s2, h2 n le_rfl] at e2
      rcases hrjk with rfl | rfl
      · linear_combination cs * e1 + sn * e2 - (∑ c ∈ range n, E r c * y c - E r n) * hcs
      · linear_combination cs * e2 - sn * e1 - (∑ c ∈ range n, E r c * y c - E r n) * hcs
    · push Not at hrjk
      have := hs r hr
      rwa [h3 r hrjk.1 hrjk.2] at this
  · intro hs r hr
    by_cases hrj : r = j
    · subst hrj
      rw [s1, h1 n le_rfl, hs r hr, hs k (by omega)]
    by_cases hrk : r = k
    · subst hrk
      rw [s2, h2 n le_rfl, hs r hr, hs j hj]
    rw [h3 r hrj hrk]; exact hs r hr

/-- Induction over the inner loop, for an invariant `I j` at the start of iteration `j`. -/
theorem sweep_induct {n k : ℕ} (I : ℕ → (ℕ → ℕ → ℝ) → Prop) {E E' : ℕ → ℕ → ℝ} (hk : k < n)
    (h0 : I (k + 1) E)
    (hstep : ∀ j F F', k < j → j < n → I j F → rotate n F k j = some F' → I (j + 1) F')
    (h : sweep n E k = some E') : I n E' := by
  unfold sweep at h
  have key : ∀ m a (F : ℕ → ℕ → ℝ), k < a → a + m = n → I a F →
      (List.range' a m).foldlM (fun E j => rotate n E k j) F = some E' → I n E' := by
    intro m
    induction m with
    | zero =>
      intro a F _ ha hF h
      simp at h; subst h
      have : a = n := by omega
      rwa [← this]
    | succ m ih =>
      intro a F hka ha hF h
      rw [List.range'_succ, List.foldlM_cons] at h
      cases hr : rotate n F k a with
      | none => rw [hr] at h; cases h
      | some F1 =>
        rw [hr] at h
        exact ih (a + 1) F1 (by omega) (by omega) (hstep a F F1 hka (by omega) hF hr) h
  exact key _ (k + 1) E (by omega) (by omega) h0 h

/-- The inner loop succeeds when each rotation does. -/
theorem sweep_defined {n k : ℕ} (I : ℕ → (ℕ → ℕ → ℝ) → Prop) {E : ℕ → ℕ → ℝ} (hk : k < n)
    (h0 : I (k + 1) E)
    (hstep : ∀ j F, k < j → j < n → I j F → ∃ F', rotate n F k j = some F' ∧ I (j + 1) F') :
    ∃ E', sweep n E k = some E' ∧ I n E' := by
  unfold sweep
  have key : ∀ m a (F : ℕ → ℕ → ℝ), k < a → a + m = n → I a F →
      ∃ E', (List.range' a m).foldlM (fun E j => rotate n E k j) F = some E' ∧ I n E' := by
    intro m
    induction m with
    | zero =>
      intro a F _ ha hF
      have : a = n := by omega
      exact ⟨F, by simp, by rwa [← this]⟩
    | succ m ih =>
      intro a F hka ha hF
      obtain ⟨F1, hr, hF1⟩ := hstep a F hka (by omega) hF
      obtain ⟨E', h1, h2⟩ := ih (a + 1) F1 (by omega) (by omega) hF1
      refine ⟨E', ?_, h2⟩
      rw [List.range'_succ, List.foldlM_cons, hr]
      exact h1
  exact key _ (k + 1) E (by omega) (by omega) h0

theorem zeros_next {n k : ℕ} {E : ℕ → ℕ → ℝ} (h : Zeros n E k n) : Zeros n E (k + 1) (k + 2) := by
  intro c r hcr hr hc
  by_cases hck : c < k
  · exact h c r hcr hr (Or.inl hck)
  by_cases hck' : c = k
  · exact h c r hcr hr (Or.inr ⟨hck', hr⟩)
  · omega

/-- Induction over the outer loop. -/
theorem forward_induct {n : ℕ} (I : ℕ → (ℕ → ℕ → ℝ) → Prop) {E E' : ℕ → ℕ → ℝ}
    (h0 : I 0 E) (hstep : ∀ k F F', k < n → I k F → sweep n F k = some F' → I (k + 1) F')
    (h : forward n E = some E') : I n E' := by
  unfold forward at h
  have key : ∀ m F, m ≤ n → (List.range m).foldlM (fun E k => sweep n E k) E = some F → I m F := by
    intro m
    induction m with
    | zero => intro F _ h; simp at h; subst h; exact h0
    | succ m ih =>
      intro F hm h
      rw [List.range_succ, List.foldlM_append] at h
      cases hr : (List.range m).foldlM (fun E k => sweep n E k) E with
      | none => rw [hr] at h; cases h
      | some F1 =>
        rw [hr] at h
        have h' : sweep n F1 m = some F := by
          simpa using h
        exact hstep m F1 F (by omega) (ih F1 (by omega) hr) h'
  exact key n E' le_rfl h

theorem forward_defined {n : ℕ} (I : ℕ → (ℕ → ℕ → ℝ) → Prop) {E : ℕ → ℕ → ℝ}
    (h0 : I 0 E) (hstep : ∀ k F, k < n → I k F → ∃ F', sweep n F k = some F' ∧ I (k + 1) F') :
    ∃ E', forward n E = some E' ∧ I n E' := by
  unfold forward
  have key : ∀ m, m ≤ n → ∃ F, (List.range m).foldlM (fun E k => sweep n E k) E = some F ∧ I m F := by
    intro m
    induction m with
    | zero => intro _; exact ⟨E, by simp, h0⟩
    | succ m ih =>
      intro hm
      obtain ⟨F1, hr, hF1⟩ := ih (by omega)
      obtain ⟨F, h1, h2⟩ := hstep m F1 (by omega) hF1
      refine ⟨F, ?_, h2⟩
      rw [List.range_succ, List.foldlM_append, hr]
      simpa using h1
  exact key n le_rfl

/-- The forward phase makes the system triangular and keeps its solutions. -/
theorem forward_spec {n : ℕ} {E E' : ℕ → ℕ → ℝ} (h : forward n E = some E') :
    Zeros n E' n (n + 1) ∧ ∀ y, Solves n E' y ↔ Solves n E y := by
  refine forward_induct (fun k F => Zeros n F k (k + 1) ∧ ∀ y, Solves n F y ↔ Solves n E y) ?_ ?_ h
  · refine ⟨?_, fun y => Iff.rfl⟩
    intro c r hcr hr hc; omega
  · rintro k F F' hk ⟨hz, hs⟩ hsw
    have := sweep_induct (fun j G => Zeros n G k j ∧ ∀ y, Solves n G y ↔ Solves n E y) hk ⟨hz, hs⟩
      (fun j G G' hkj hj ⟨gz, gs⟩ hr =>
        ⟨zeros_rotate hkj hj gz hr, fun y => (solves_rotate hkj hj gz hr y).trans (gs y)⟩) hsw
    exact ⟨zeros_next this.1, this.2⟩

theorem foldl_sub (l : List ℕ) (f : ℕ → ℝ) (a : ℝ) :
    l.foldl (fun s i => s - f i) a = a - (l.map f).sum := by
  induction l generalizing a with
  | nil => simp
  | cons i l ih => rw [List.foldl_cons, ih, List.map_cons, List.sum_cons]; ring

theorem sum_range' (f : ℕ → ℝ) (a m : ℕ) :
    ((List.range' a m).map f).sum = ∑ i ∈ Ico a (a + m), f i := by
  induction m generalizing a with
  | zero => simp
  | succ m ih =>
    rw [List.range'_succ, List.map_cons, List.sum_cons, ih,
      Finset.sum_eq_sum_Ico_succ_bot (show a < a + (m + 1) by omega),
      show a + 1 + m = a + (m + 1) by omega]

/-- The back substitution computes the only solution of a triangular system. -/
theorem backward_spec {n : ℕ} {E : ℕ → ℕ → ℝ} {x : ℕ → ℝ} (hz : Zeros n E n (n + 1))
    (h : backward n E = some x) : Solves n E x ∧ ∀ y, Solves n E y → ∀ i < n, y i = x i := by
  unfold backward at h
  -- the rows `≥ k` are solved after the steps for `n-1, …, k`
  have key : ∀ m (x0 : ℕ → ℝ), m ≤ n →
      (∀ r, m ≤ r → r < n → E r r ≠ 0 ∧ E r r * x0 r + ∑ c ∈ Ico (r + 1) n, E r c * x0 c = E r n) →
      (List.range m).reverse.foldlM (fun x k => backStep n E x k) x0 = some x →
      ∀ r < n, E r r ≠ 0 ∧ E r r * x r + ∑ c ∈ Ico (r + 1) n, E r c * x c = E r n := by
    intro m
    induction m with
    | zero => intro x0 _ h0 h r hr; simp at h; subst h; exact h0 r (by omega) hr
    | succ m ih =>
      intro x0 hm h0 h
      rw [List.range_succ, List.reverse_append, List.reverse_singleton, List.singleton_append,
        List.foldlM_cons] at h
      cases hb : backStep n E x0 m with
      | none => rw [hb] at h; cases h
      | some x1 =>
        rw [hb] at h
        refine ih x1 (by omega) ?_ h
        unfold backStep at hb
        dsimp only at hb
        by_cases hp : E m m = 0
        · rw [if_pos hp] at hb; cases hb
        rw [if_neg hp] at hb
        injection hb with hb
        intro r hmr hr
        have hsum : ∀ r, m ≤ r → ∑ c ∈ Ico (r + 1) n, E r c * x1 c = ∑ c ∈ Ico (r + 1) n, E r c * x0 c := by
          intro r hr
          refine sum_congr rfl (fun c hc => ?_)
          rw [← hb, Function.update_of_ne]
          simp at hc; omega
        by_cases hrm : r = m
        · subst hrm
          refine ⟨hp, ?_⟩
          rw [hsum r le_rfl, ← hb, Function.update_self, foldl_sub (List.range' (r + 1) (n - (r + 1)))
            (fun i => E r i * x0 i), sum_range', Nat.add_sub_cancel' (by omega : r + 1 ≤ n)]
          field_simp
          ring
        · rw [hsum r hmr, ← hb, Function.update_of_ne hrm]
          exact h0 r (by omega) hr
  have hrow := key n _ le_rfl (fun r h1 h2 => by omega) h
  have split : ∀ (y : ℕ → ℝ) r, r < n →
      ∑ c ∈ range n, E r c * y c = E r r * y r + ∑ c ∈ Ico (r + 1) n, E r c * y c := by
    intro y r hr
    rw [range_eq_Ico, ← Finset.sum_Ico_consecutive _ (Nat.zero_le r) hr.le,
      Finset.sum_eq_sum_Ico_succ_bot hr]
    have : ∑ c ∈ Ico 0 r, E r c * y c = 0 := by
      refine sum_eq_zero (fun c hc => ?_)
      simp at hc
      rw [hz c r hc hr (Or.inl (by omega)), zero_mul]
    rw [this, zero_add]
  refine ⟨fun r hr => by rw [split x r hr]; exact (hrow r hr).2, ?_⟩
  intro y hy
  -- downward induction
  have down : ∀ m r, r + m = n → ∀ i, r ≤ i → i < n → y i = x i := by
    intro m
    induction m with
    | zero => intro r hr i h1 h2; omega
    | succ m ih =>
      intro r hr i h1 h2
      by_cases hir : i = r
      · subst hir
        have e1 := hy i h2
        rw [split y i h2] at e1
        obtain ⟨hp, e2⟩ := hrow i h2
        have e3 : ∑ c ∈ Ico (i + 1) n, E i c * y c = ∑ c ∈ Ico (i + 1) n, E i c * x c := by
          refine sum_congr rfl (fun c hc => ?_)
          simp at hc
          rw [ih (i + 1) (by omega) c (by omega) (by omega)]
        rw [e3] at e1
        exact mul_left_cancel₀ hp (by linarith)
      · exact ih (r + 1) (by omega) i (by omega) h2
  intro i hi
  exact down n 0 (by omega) i (Nat.zero_le _) hi

theorem backward_defined {n : ℕ} {E : ℕ → ℕ → ℝ} (h : ∀ r < n, E r r ≠ 0) :
    ∃ x, backward n E = some x := by
  unfold backward
  have key : ∀ (l : List ℕ) (x0 : ℕ → ℝ), (∀ r ∈ l, r < n) →
      ∃ x, l.foldlM (fun x k => backStep n E x k) x0 = some x := by
    intro l
    induction l with
    | nil => intro x0 _; exact ⟨x0, by simp⟩
    | cons k l ih =>
      intro x0 hl
      rw [List.foldlM_cons]
      have : ∃ x1, backStep n E x0 k = some x1 := by
        unfold backStep
        exact ⟨_, if_neg (h k (hl k (by simp)))⟩
      obtain ⟨x1, h1⟩ := this
      rw [h1]
      exact ih x1 (fun r hr => hl r (by simp [hr]))
  exact key _ _ (fun r hr => by simpa using hr)

/-! ## Success -/

/-- The leading square blocks of `A` are regular: no combination of the first `k + 1` rows vanishes in
the first `k + 1` columns. -/
def LeadingRegular (A : ℕ → ℝ) (n : ℕ) : Prop :=
  ∀ k < n, ∀ c : ℕ → ℝ, (∀ m ≤ k, ∑ r ∈ range (k + 1), c r * A (r * n + m) = 0) → ∀ r ≤ k, c r = 0

/-- The rows of the current matrix are orthonormal combinations `Q` of the original rows; row `r ≠ k`
uses the rows up to `r`, row `k` the rows before `j`. -/
structure Tracked (n : ℕ) (M E : ℕ → ℕ → ℝ) (k j : ℕ) (Q : ℕ → ℕ → ℝ) : Prop where
  comb : ∀ r < n, ∀ c ≤ n, E r c = ∑ s ∈ range n, Q r s * M s c
  ortho : ∀ r < n, ∀ r' < n, ∑ s ∈ range n, Q r s * Q r' s = if r = r' then 1 else 0
  support : ∀ r < n, k < r → ∀ s, r < s → Q r s = 0
  supportk : ∀ s, j ≤ s → Q k s = 0

theorem tracked_rotate {n k j : ℕ} {M E E' Q : ℕ → ℕ → ℝ} (hkj : k < j) (hj : j < n)
    (hz : Zeros n E k j) (h : rotate n E k j = some E') (ht : Tracked n M E k j Q) :
    ∃ Q', Tracked n M E' k (j + 1) Q' := by
  obtain ⟨cs, sn, hcs, h1, h2, h3, -, -⟩ := rotate_spec hkj hj hz h
  have hkne : k ≠ j := by omega
  set Q' : ℕ → ℕ → ℝ := fun r s => if r = j then cs * Q j s - sn * Q k s
    else if r = k then sn * Q j s + cs * Q k s else Q r s with hQ
  have qj : ∀ s, Q' j s = cs * Q j s - sn * Q k s := fun s => by simp [hQ]
  have qk : ∀ s, Q' k s = sn * Q j s + cs * Q k s := fun s => by simp [hQ, hkne]
  have qo : ∀ r, r ≠ j → r ≠ k → Q' r = Q r := fun r a b => by funext s; simp [hQ, a, b]
  have lin : ∀ (a b : ℝ) (f g u : ℕ → ℝ), ∑ s ∈ range n, (a * f s + b * g s) * u s =
      a * ∑ s ∈ range n, f s * u s + b * ∑ s ∈ range n, g s * u s := by
    intro a b f g u
    rw [mul_sum, mul_sum, ← sum_add_distrib]
    exact sum_congr rfl (fun s _ => by ring)
  have qj' : ∀ s, Q' j s = cs * Q j s + (-sn) * Q k s := fun s => by rw [qj]; ring
  have dj : ∀ u : ℕ → ℝ, ∑ s ∈ range n, Q' j s * u s =
      cs * ∑ s ∈ range n, Q j s * u s + (-sn) * ∑ s ∈ range n, Q k s * u s := by
    intro u; rw [← lin]; exact sum_congr rfl (fun s _ => by rw [qj'])
  have dk : ∀ u : ℕ → ℝ, ∑ s ∈ range n, Q' k s * u s =
      sn * ∑ s ∈ range n, Q j s * u s + cs * ∑ s ∈ range n, Q k s * u s := by
    intro u; rw [← lin]; exact sum_congr rfl (fun s _ => by rw [qk])
  have comm : ∀ (f g : ℕ → ℝ), ∑ s ∈ range n, f s * g s = ∑ s ∈ range n, g s * f s :=
    fun f g => sum_congr rfl (fun s _ => mul_comm _ _)
  have hkn : k < n := by omega
  have ojj := ht.ortho j hj j hj
  have okk := ht.ortho k hkn k hkn
  have ojk := ht.ortho j hj k hkn
  have okj := ht.ortho k hkn j hj
  rw [if_pos rfl] at ojj okk
  rw [if_neg hkne.symm] at ojk
  rw [if_neg hkne] at okj
  have first : ∀ r' < n, r' ≠ j → r' ≠ k →
      ∑ s ∈ range n, Q' j s * Q r' s = 0 ∧ ∑ s ∈ range n, Q' k s * Q r' s = 0 := by
    intro r' hr' a b
    have e1 := ht.ortho j hj r' hr'
    have e2 := ht.ortho k hkn r' hr'
    rw [if_neg (Ne.symm a)] at e1
    rw [if_neg (Ne.symm b)] at e2
    exact ⟨by rw [dj, e1, e2]; ring, by rw [dk, e1, e2]; ring⟩
  refine ⟨Q', ⟨?_, ?_, ?_, ?_⟩⟩
  · intro r hr c hc
    by_cases hrj : r = j
    · subst hrj
      rw [h1 c hc, dj (fun s => M s c), ht.comb r hr c hc, ht.comb k hkn c hc]; ring
    by_cases hrk : r = k
    · subst hrk
      rw [h2 c hc, dk (fun s => M s c), ht.comb r hr c hc, ht.comb j hj c hc]
    rw [h3 r hrj hrk, qo r hrj hrk]; exact ht.comb r hr c hc
  · intro r hr r' hr'
    by_cases hrj : r = j
    · by_cases hrj' : r' = j
      · rw [hrj, hrj', if_pos rfl, dj, comm (Q j), comm (Q k), dj, dj, ojj, ojk, okj, okk]
        linear_combination hcs
      by_cases hrk' : r' = k
      · rw [hrj, hrk', if_neg hkne.symm, dj, comm (Q j), comm (Q k), dk, dk, ojj, ojk, okj, okk]
        ring
      rw [hrj, qo r' hrj' hrk', if_neg (Ne.symm hrj')]
      exact (first r' hr' hrj' hrk').1
    by_cases hrk : r = k
    · by_cases hrj' : r' = j
      · rw [hrk, hrj', if_neg hkne, dk, comm (Q j), comm (Q k), dj, dj, ojj, ojk, okj, okk]
        ring
      by_cases hrk' : r' = k
      · rw [hrk, hrk', if_pos rfl, dk, comm (Q j), comm (Q k), dk, dk, ojj, ojk, okj, okk]
        linear_combination hcs
      rw [hrk, qo r' hrj' hrk', if_neg (Ne.symm hrk')]
      exact (first r' hr' hrj' hrk').2
    rw [qo r hrj hrk]
    by_cases hrj' : r' = j
    · rw [hrj', if_neg hrj, comm]; exact (first r hr hrj hrk).1
    by_cases hrk' : r' = k
    · rw [hrk', if_neg hrk, comm]; exact (first r hr hrj hrk).2
    rw [qo r' hrj' hrk']; exact ht.ortho r hr r' hr'
  · intro r hr hkr s hs
    by_cases hrj : r = j
    · subst hrj
      rw [qj, ht.support r hr hkr s hs, ht.supportk s hs.le]; ring
    rw [qo r hrj (by omega)]; exact ht.support r hr hkr s hs
  · intro s hs
    rw [qk, ht.support j hj hkj s (by omega), ht.supportk s (by omega)]; ring

theorem tracked_next {n k : ℕ} {M E Q : ℕ → ℕ → ℝ} (hk : k + 1 < n) (ht : Tracked n M E k n Q) :
    Tracked n M E (k + 1) (k + 2) Q :=
  ⟨ht.comb, ht.ortho, fun r hr hkr s hs => ht.support r hr (by omega) s hs,
    fun s hs => ht.support (k + 1) hk (by omega) s (by omega)⟩

/-- At the start of sweep `k` the pivot is not zero. -/
theorem pivot_ne_zero {n k : ℕ} {A b : ℕ → ℝ} {E Q : ℕ → ℕ → ℝ} (hA : LeadingRegular A n) (hk : k < n)
    (hz : Zeros n E k (k + 1)) (ht : Tracked n (augmented A b n) E k (k + 1) Q) : E k k ≠ 0 := by
  intro h0
  have hall : ∀ m ≤ k, E k m = 0 := by
    intro m hm
    by_cases hmk : m = k
    · rw [hmk]; exact h0
    · exact hz m k (by omega) hk (Or.inl (by omega))
  have hsum : ∀ m ≤ k, ∑ r ∈ range (k + 1), Q k r * A (r * n + m) = 0 := by
    intro m hm
    have e := ht.comb k hk m (by omega)
    rw [hall m hm] at e
    rw [e]
    refine (sum_subset_zero_on_sdiff (fun s hs => ?_) (fun s hs => ?_) (fun s hs => ?_))
    · simp at hs ⊢; omega
    · simp at hs
      rw [ht.supportk s (by omega), zero_mul]
    · unfold augmented
      rw [if_neg (by omega)]
  have hQ := hA k hk (Q k) hsum
  have e := ht.ortho k hk k hk
  rw [if_pos rfl] at e
  have : ∑ s ∈ range n, Q k s * Q k s = 0 := by
    refine sum_eq_zero (fun s _ => ?_)
    by_cases hs : s ≤ k
    · rw [hQ s hs, zero_mul]
    · rw [ht.supportk s (by omega), zero_mul]
  linarith

theorem tracked_init (n : ℕ) (M : ℕ → ℕ → ℝ) :
    Tracked n M M 0 1 (fun r s => if r = s then 1 else 0) := by
  refine ⟨?_, ?_, ?_, ?_⟩
  · intro r hr c _
    simp [hr]
  · intro r hr r' hr'
    simp [hr']
  · intro r _ _ s hs; simp; omega
  · intro s hs; simp; omega

/-- For a matrix with regular leading blocks the solver succeeds. -/
theorem forward_succeeds {n : ℕ} {A b : ℕ → ℝ} (hA : LeadingRegular A n) :
    ∃ E', forward n (augmented A b n) = some E' ∧ ∀ r < n, E' r r ≠ 0 := by
  have := forward_defined (n := n) (E := augmented A b n)
    (fun k F => Zeros n F k (k + 1) ∧ (∀ r < k, F r r ≠ 0) ∧
      (k < n → ∃ Q, Tracked n (augmented A b n) F k (k + 1) Q))
    ⟨fun c r h1 h2 h3 => by omega, fun r hr => by omega, fun _ => ⟨_, tracked_init n _⟩⟩ ?_
  · obtain ⟨E', h1, -, h2, -⟩ := this
    exact ⟨E', h1, h2⟩
  · rintro k F hk ⟨hz, hp, hQ⟩
    obtain ⟨Q, hQ⟩ := hQ hk
    have hsw := sweep_defined (n := n) (k := k) (E := F)
      (fun j G => Zeros n G k j ∧ (∀ r ≤ k, G r r ≠ 0) ∧ ∃ Q, Tracked n (augmented A b n) G k j Q) hk
      ⟨hz, fun r hr => by
        by_cases hrk : r = k
        · rw [hrk]; exact pivot_ne_zero hA hk hz hQ
        · exact hp r (by omega), Q, hQ⟩ ?_
    · obtain ⟨F', h1, h2, h3, h4⟩ := hsw
      refine ⟨F', h1, zeros_next h2, fun r hr => h3 r (by omega), fun hk' => ?_⟩
      obtain ⟨Q, hQ⟩ := h4
      exact ⟨Q, tracked_next hk' hQ⟩
    · rintro j G hkj hj ⟨gz, gp, Q, gQ⟩
      have hne : Real.sqrt (G k k * G k k + G j k * G j k) ≠ 0 := by
        have h1 : 0 < G k k * G k k := mul_self_pos.mpr (gp k le_rfl)
        have h2 := mul_self_nonneg (G j k)
        exact (Real.sqrt_pos.mpr (by linarith)).ne'
      have : ∃ G', rotate n G k j = some G' := by
        unfold rotate
        exact ⟨_, if_neg hne⟩
      obtain ⟨G', hr⟩ := this
      refine ⟨G', hr, zeros_rotate hkj hj gz hr, ?_, tracked_rotate hkj hj gz hr gQ⟩
      obtain ⟨cs, sn, -, -, -, r3, -, r4⟩ := rotate_spec hkj hj gz hr
      intro r hrk
      by_cases hrk' : r = k
      · rw [hrk']; exact r4
      · rw [r3 r (by omega) hrk']; exact gp r hrk

end Verif.Smooth
