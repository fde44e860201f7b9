import Verif.Fp.KnnModel
import Verif.Fp.AbLemmas
import Verif.Knn.HullProps

/-! # Numbers that differ by a few roundings -/

namespace Verif.Fp

open Verif Verif.Knn Verif.Levels

variable (R : Rounding)

/-- The factor that one rounding can make. -/
noncomputable def grow : ℝ := 1 + 2 * u

/-- `x` and `y` differ by the factors of at most `k` roundings. -/
structure Within (k : ℕ) (x y : ℝ) : Prop where
  x0 : 0 ≤ x
  y0 : 0 ≤ y
  le : x ≤ y * grow ^ k
  ge : y ≤ x * grow ^ k

/-- No underflow. -/
noncomputable def low : ℝ := 1 / 10 ^ 200

theorem grow_one : 1 ≤ grow := by unfold grow; linarith [u_pos]

theorem grow_pos (k : ℕ) : 0 < grow ^ k := pow_pos (lt_of_lt_of_le one_pos grow_one) k

theorem grow_ge (k : ℕ) : 1 ≤ grow ^ k := one_le_pow₀ grow_one

theorem grow_le {k l : ℕ} (h : k ≤ l) : grow ^ k ≤ grow ^ l := pow_le_pow_right₀ grow_one h

theorem u_tight : u ≤ 12 / 10 ^ 17 := by unfold u; norm_num

theorem u_least : 11 / 10 ^ 17 ≤ u := by unfold u; norm_num

theorem grow_small {k : ℕ} (h : k ≤ 3 * 10 ^ 9) : grow ^ k ≤ 1 + 8 / 10 ^ 7 := by
  have h1 : grow ^ k ≤ Real.exp (2 * u * k) := by
    have : grow ≤ Real.exp (2 * u) := by
      have := Real.add_one_le_exp (2 * u)
      unfold grow; linarith
    calc grow ^ k ≤ Real.exp (2 * u) ^ k := pow_le_pow_left₀ (le_trans zero_le_one grow_one) this k
      _ = Real.exp (2 * u * k) := by rw [← Real.exp_nat_mul]; ring_nf
  have hk : (k : ℝ) ≤ 3 * 10 ^ 9 := by exact_mod_cast h
  have h2 : 2 * u * k ≤ 72 / 10 ^ 8 := by
    have := u_tight
    calc 2 * u * k ≤ 2 * (12 / 10 ^ 17) * (3 * 10 ^ 9) := by gcongr
      _ = _ := by norm_num
  have h3 : 1 - 72 / 10 ^ 8 ≤ Real.exp (-(2 * u * k)) := by
    have := Real.add_one_le_exp (-(2 * u * k))
    linarith
  have h4 : Real.exp (2 * u * k) * Real.exp (-(2 * u * k)) = 1 := by rw [← Real.exp_add]; simp
  have h5 := Real.exp_pos (2 * u * k)
  have h6 : Real.exp (2 * u * k) * (1 - 72 / 10 ^ 8) ≤ 1 := by
    exact (mul_le_mul_of_nonneg_left h3 h5.le).trans h4.le
  linarith

variable {k l : ℕ} {x y x' y' : ℝ}

theorem Within.refl (h : 0 ≤ x) : Within k x x :=
  ⟨h, h, le_mul_of_one_le_right h (grow_ge k), le_mul_of_one_le_right h (grow_ge k)⟩

theorem Within.mono (h : Within k x y) (hkl : k ≤ l) : Within l x y :=
  ⟨h.x0, h.y0, h.le.trans (mul_le_mul_of_nonneg_left (grow_le hkl) h.y0), h.ge.trans (mul_le_mul_of_nonneg_left (grow_le hkl) h.x0)⟩

theorem Within.symm (h : Within k x y) : Within k y x := ⟨h.y0, h.x0, h.ge, h.le⟩

theorem Within.trans {z : ℝ} (h : Within k x y) (h' : Within l y z) : Within (k + l) x z := by
  refine ⟨h.x0, h'.y0, ?_, ?_⟩
  · calc x ≤ y * grow ^ k := h.le
      _ ≤ z * grow ^ l * grow ^ k := mul_le_mul_of_nonneg_right h'.le (grow_pos k).le
      _ = _ := by rw [pow_add]; ring
  · calc z ≤ y * grow ^ l := h'.ge
      _ ≤ x * grow ^ k * grow ^ l := mul_le_mul_of_nonneg_right h.ge (grow_pos l).le
      _ = _ := by rw [pow_add]; ring

theorem Within.add (h : Within k x y) (h' : Within k x' y') : Within k (x + x') (y + y') :=
  ⟨add_nonneg h.x0 h'.x0, add_nonneg h.y0 h'.y0, by rw [add_mul]; exact add_le_add h.le h'.le, by rw [add_mul]; exact add_le_add h.ge h'.ge⟩

theorem Within.mul (h : Within k x y) (h' : Within l x' y') : Within (k + l) (x * x') (y * y') := by
  refine ⟨mul_nonneg h.x0 h'.x0, mul_nonneg h.y0 h'.y0, ?_, ?_⟩
  · calc x * x' ≤ (y * grow ^ k) * (y' * grow ^ l) := mul_le_mul h.le h'.le h'.x0 (mul_nonneg h.y0 (grow_pos k).le)
      _ = _ := by rw [pow_add]; ring
  · calc y * y' ≤ (x * grow ^ k) * (x' * grow ^ l) := mul_le_mul h.ge h'.ge h'.y0 (mul_nonneg h.x0 (grow_pos k).le)
      _ = _ := by rw [pow_add]; ring

theorem Within.pos (h : Within k x y) (hy : 0 < y) : 0 < x := by
  rcases h.x0.lt_or_eq with h0 | h0
  · exact h0
  · have := h.ge
    rw [← h0, zero_mul] at this
    linarith

theorem Within.inv (h : Within k x y) (hy : 0 < y) : Within k (1 / x) (1 / y) := by
  have hx := h.pos hy
  refine ⟨by positivity, by positivity, ?_, ?_⟩
  · rw [div_mul_eq_mul_div, one_mul, div_le_div_iff₀ hx hy]
    linarith [h.ge]
  · rw [div_mul_eq_mul_div, one_mul, div_le_div_iff₀ hy hx]
    linarith [h.le]

theorem Within.div (h : Within k x y) (h' : Within l x' y') (hy : 0 < y') : Within (k + l) (x / x') (y / y') := by
  have := h.mul (h'.inv hy)
  simpa [div_eq_mul_inv] using this

theorem Within.sqrt (h : Within k x y) : Within k (Real.sqrt x) (Real.sqrt y) := by
  have key : ∀ {a b : ℝ}, 0 ≤ b → a ≤ b * grow ^ k → Real.sqrt a ≤ Real.sqrt b * grow ^ k := by
    intro a b hb hab
    rw [Real.sqrt_le_left (by have := grow_pos k; positivity), mul_pow, Real.sq_sqrt hb]
    refine hab.trans (mul_le_mul_of_nonneg_left ?_ hb)
    exact le_self_pow₀ (grow_ge k) (by norm_num)
  exact ⟨Real.sqrt_nonneg _, Real.sqrt_nonneg _, key h.y0 h.le, key h.x0 h.ge⟩

theorem Within.max (h : Within k x y) (h' : Within k x' y') : Within k (max x x') (max y y') := by
  refine ⟨h.x0.trans (le_max_left _ _), h.y0.trans (le_max_left _ _), ?_, ?_⟩
  · rw [max_mul_of_nonneg _ _ (grow_pos k).le]
    exact max_le_max h.le h'.le
  · rw [max_mul_of_nonneg _ _ (grow_pos k).le]
    exact max_le_max h.ge h'.ge

theorem tiny_low : tiny ≤ u / 2 * low := by
  refine tiny_small.trans ?_
  have h1 : u ^ 19 ≤ (1 / 10 ^ 15) ^ 19 := pow_le_pow_left₀ u_pos.le u_small 19
  have h2 : ((1 : ℝ) / 10 ^ 15) ^ 19 ≤ 1 / 2 * (1 / 10 ^ 200) := by
    rw [div_pow, one_pow, ← pow_mul, one_div_mul_one_div, div_le_div_iff₀ (by positivity) (by positivity)]
    have : (2 : ℝ) * 10 ^ 200 ≤ 10 ^ 1 * 10 ^ 200 := by gcongr; norm_num
    have h : (10 : ℝ) ^ 1 * 10 ^ 200 ≤ 10 ^ (15 * 19) := by rw [← pow_add]; exact pow_le_pow_right₀ (by norm_num) (by norm_num)
    linarith
  calc u ^ 20 = u * u ^ 19 := by ring
    _ ≤ u * (1 / 2 * (1 / 10 ^ 200)) := mul_le_mul_of_nonneg_left (h1.trans h2) u_pos.le
    _ = _ := by unfold low; ring

/-- One rounding. -/
theorem within_rnd (h : low ≤ x) : Within 1 (R.rnd x) x := by
  have hl : 0 < low := by unfold low; positivity
  have hx : 0 < x := hl.trans_le h
  have hu := u_pos
  have h1 := R.near x
  rw [abs_of_pos hx] at h1
  have h2 : tiny ≤ u / 2 * x := tiny_low.trans (mul_le_mul_of_nonneg_left h (by linarith))
  obtain ⟨h3, h4⟩ := abs_le.mp h1
  have hus := u_small
  have hux : u * x ≤ 1 / 10 ^ 15 * x := mul_le_mul_of_nonneg_right hus hx.le
  have h0 : x * (1 - 3 / 2 * u) ≤ R.rnd x := by linarith
  refine ⟨by linarith, hx.le, ?_, ?_⟩
  · rw [pow_one]; unfold grow; linarith
  · rw [pow_one]; unfold grow
    have : x * (1 - 3 / 2 * u) * (1 + 2 * u) ≤ R.rnd x * (1 + 2 * u) := mul_le_mul_of_nonneg_right h0 (by linarith)
    refine le_trans ?_ this
    have : u * (u * x) ≤ 1 / 10 ^ 15 * (u * x) := mul_le_mul_of_nonneg_right hus (by positivity)
    have : 0 ≤ u * x := by positivity
    nlinarith

theorem Within.rnd (h : Within k x y) (hx : low ≤ x) : Within (k + 1) (R.rnd x) y := by
  rw [add_comm]
  exact (within_rnd R hx).trans h

theorem Within.large (h : Within k x y) (hk : k ≤ 3 * 10 ^ 9) : y / 2 ≤ x := by
  have h1 := grow_small hk
  have h2 : x * grow ^ k ≤ x * 2 := mul_le_mul_of_nonneg_left (by linarith) h.x0
  linarith [h.ge]

theorem Within.small (h : Within k x y) (hk : k ≤ 3 * 10 ^ 9) : x ≤ 2 * y := by
  have := h.symm.large hk
  linarith

/-- Rounding of a number that is not too small, by a bound on the exact one. -/
theorem Within.rnd' (h : Within k x y) (hk : k ≤ 3 * 10 ^ 9) (hy : 2 * low ≤ y) : Within (k + 1) (R.rnd x) y :=
  h.rnd R (by have := h.large hk; linarith)

theorem Within.near (h : Within k x y) (hk : k ≤ 3 * 10 ^ 9) : |x - y| ≤ 8 / 10 ^ 7 * y := by
  have h1 := grow_small hk
  have h2 : x ≤ y * (1 + 8 / 10 ^ 7) := h.le.trans (mul_le_mul_of_nonneg_left h1 h.y0)
  have h3 : y ≤ x * (1 + 8 / 10 ^ 7) := h.ge.trans (mul_le_mul_of_nonneg_left h1 h.x0)
  rw [abs_le]
  constructor
  · by_contra hc
    push Not at hc
    have := h.y0
    nlinarith
  · linarith

/-! ## The weights of the transmitters -/

theorem transmitters_fold (trustF : RadioData → ℝ) (msr : List RadioData) (id : String) {K : ℕ} (hK : K + msr.length ≤ 3 * 10 ^ 9)
    (ht : ∀ m ∈ msr, Within K (trustF m) (trustSpec m)) (hl : ∀ m ∈ msr, 2 * low ≤ trustSpec m) :
    let r := msr.foldl (fun (a : List (String × ℝ) × ℝ) m => (StdMap.set a.1 m.id (trustF m), R.rnd (a.2 + trustF m))) ([], 0)
    StdMap.find? r.1 id = (msr.reverse.find? (fun m => m.id == id)).map trustF ∧
    Within (K + msr.length) r.2 (msr.map trustSpec).sum := by
  induction msr using List.reverseRecOn with
  | nil => exact ⟨by simp, by simpa using Within.refl le_rfl⟩
  | append_singleton l m ih =>
    simp only [List.length_append, List.length_singleton] at hK
    have ih' := ih (by omega) (fun x hx => ht x (by simp [hx])) (fun x hx => hl x (by simp [hx]))
    simp only [List.foldl_append, List.foldl_cons, List.foldl_nil] at ih' ⊢
    obtain ⟨h1, h2⟩ := ih'
    constructor
    · rw [StdMap.find?_set, h1, List.reverse_append, List.reverse_singleton, List.singleton_append, List.find?_cons]
      by_cases h : m.id = id
      · simp [h]
      · have h1 : (m.id == id) = false := by simpa using h
        have h2 : ¬ id = m.id := fun h' => h h'.symm
        simp [h1, h]
    · rw [List.map_append, List.sum_append, List.map_singleton, List.sum_singleton, List.length_append, List.length_singleton, ← add_assoc]
      have hm := ht m (by simp)
      have hlm := hl m (by simp)
      refine (h2.add (hm.mono (by omega))).rnd' R (by omega) ?_
      linarith [h2.y0]

/-- The shares. -/
theorem share_within (trustF : RadioData → ℝ) (msr : List RadioData) (id : String) {K : ℕ} (hK : 2 * K + msr.length + 1 ≤ 10 ^ 9)
    (ht : ∀ m ∈ msr, Within K (trustF m) (trustSpec m)) (hl : ∀ m ∈ msr, 1 / 10 ^ 24 ≤ trustSpec m ∧ trustSpec m ≤ 10 ^ 24) :
    Within (2 * K + msr.length + 1) (weightOf (transmittersWeightsF R trustF msr) id) (share msr id) ∧
      share msr id ≤ 1 ∧ ((∃ m ∈ msr, m.id = id) → 1 / 10 ^ 60 ≤ share msr id) := by
  have hlow : (2 : ℝ) * low ≤ 1 / 10 ^ 24 := by unfold low; norm_num
  obtain ⟨h1, h2⟩ := transmitters_fold R trustF msr id (by omega) ht (fun m hm => hlow.trans (hl m hm).1)
  unfold weightOf transmittersWeightsF share
  simp only
  rw [find?_map (fun v => R.rnd (v ÷ _)), h1]
  cases hf : msr.reverse.find? (fun m => m.id == id) with
  | none =>
    simp only [Option.map_none, Option.getD_none]
    refine ⟨Within.refl le_rfl, by norm_num, ?_⟩
    rintro ⟨m, hm, e⟩
    rw [List.find?_eq_none] at hf
    exact absurd (by simpa using e) (hf m (by simpa using hm))
  | some m =>
    have hm : m ∈ msr := by simpa using List.mem_of_find?_eq_some hf
    simp only [Option.map_some, Option.getD_some]
    have hsum : trustSpec m ≤ (msr.map trustSpec).sum := by
      apply List.single_le_sum
      · intro x hx
        obtain ⟨y, -, rfl⟩ := List.mem_map.mp hx
        exact (trustSpec_pos y).le
      · exact List.mem_map_of_mem hm
    have hs0 : 0 < (msr.map trustSpec).sum := (trustSpec_pos m).trans_le hsum
    have hs1 : (msr.map trustSpec).sum ≤ 10 ^ 9 * 10 ^ 24 := by
      have : (msr.map trustSpec).sum ≤ (msr.map trustSpec).length • (10 : ℝ) ^ 24 := by
        apply List.sum_le_card_nsmul
        intro x hx
        obtain ⟨y, hy, rfl⟩ := List.mem_map.mp hx
        exact (hl y hy).2
      rw [List.length_map, nsmul_eq_mul] at this
      refine this.trans (mul_le_mul_of_nonneg_right ?_ (by norm_num))
      have : msr.length ≤ 10 ^ 9 := by omega
      exact_mod_cast this
    have hsh : 1 / 10 ^ 60 ≤ trustSpec m / (msr.map trustSpec).sum := by
      rw [div_le_div_iff₀ (by norm_num) hs0]
      have := (hl m hm).1
      nlinarith
    refine ⟨?_, (div_le_one hs0).mpr hsum, fun _ => hsh⟩
    rw [divide_pos (h2.pos hs0)]
    have := (ht m hm).div h2 hs0
    refine ((this.rnd' R (by omega) ?_).mono (by omega))
    refine le_trans ?_ hsh
    unfold low; norm_num

/-! ## The penalties -/

theorem within_wide {x y : ℝ} (hx : 0 ≤ x) (hy : 0 ≤ y) (h1 : x ≤ y * (1 + 4 / 10 ^ 7)) (h2 : y ≤ x * (1 + 4 / 10 ^ 7)) :
    Within (2 * 10 ^ 9) x y := by
  have h : 1 + 4 / 10 ^ 7 ≤ grow ^ (2 * 10 ^ 9) := by
    have h0 := one_add_mul_le_pow (show (-2 : ℝ) ≤ 2 * u by linarith [u_pos]) (2 * 10 ^ 9)
    have hu := u_least
    have : grow ^ (2 * 10 ^ 9) = (1 + 2 * u) ^ (2 * 10 ^ 9) := by unfold grow; rfl
    rw [this]
    refine le_trans ?_ h0
    push_cast
    linarith
  exact ⟨hx, hy, h1.trans (mul_le_mul_of_nonneg_left h hy), h2.trans (mul_le_mul_of_nonneg_left h hx)⟩

/-- The penalty forgives a small error of the difference, because it is at least a millionth. -/
theorem penalty_within {a : ℕ} {d' d A' A : ℝ} (hd : |d' - d| ≤ 2 / 10 ^ 13) (hA : Within a A' A) (hA1 : A ≤ 1) (ha : a ≤ 3 * 10 ^ 9) :
    Within (2 * 10 ^ 9 + a + 1) (penaltyF R d' A') (max (|d| * A) (1 / 1000000)) := by
  have e : penaltyF R d' A' = R.rnd (max (|d'| * A') (1 / 1000000)) := by
    unfold penaltyF
    exact (R.mono.map_max).symm
  rw [e]
  have h1 : Within (2 * 10 ^ 9) (max (|d'| * A') (1 / 1000000)) (max (|d| * A') (1 / 1000000)) := by
    have hA2 := hA.small ha
    have hA0 := hA.x0
    have hd' := abs_sub_abs_le_abs_sub d' d
    have hd'' := abs_sub_abs_le_abs_sub d d'
    rw [abs_sub_comm] at hd''
    have key : ∀ p q : ℝ, |p| - |q| ≤ 2 / 10 ^ 13 → max (|p| * A') (1 / 1000000) ≤ max (|q| * A') (1 / 1000000) * (1 + 4 / 10 ^ 7) := by
      intro p q hpq
      have m1 := le_max_left (|q| * A') (1 / 1000000)
      have m2 := le_max_right (|q| * A') (1 / 1000000)
      set X := max (|q| * A') (1 / 1000000)
      have : (|p| - |q|) * A' ≤ 2 / 10 ^ 13 * A' := mul_le_mul_of_nonneg_right hpq hA0
      apply max_le
      · linarith
      · linarith
    exact within_wide (le_trans (by norm_num) (le_max_right _ _)) (le_trans (by norm_num) (le_max_right _ _))
      (key _ _ (hd'.trans hd)) (key _ _ (hd''.trans hd))
  have h2 : Within a (max (|d| * A') (1 / 1000000)) (max (|d| * A) (1 / 1000000)) := by
    have := (Within.refl (k := 0) (abs_nonneg d)).mul hA
    rw [zero_add] at this
    exact this.max (Within.refl (by norm_num))
  refine (h1.trans h2).rnd R (le_trans ?_ (le_max_right _ _))
  unfold low; norm_num

theorem rnd_off {x B : ℝ} (h : |x| ≤ B) (hB : 1 / 1000000 ≤ B) : |R.rnd x - x| ≤ 1.001 * u * B := by
  have h1 := R.near x
  have h2 := tiny_low
  have hu := u_pos
  have hl : u / 2 * low ≤ u * (1 / 1000000000) := by
    have : low ≤ 1 / 1000000000 := by unfold low; norm_num
    nlinarith
  have h3 : u * |x| ≤ u * B := mul_le_mul_of_nonneg_left h hu.le
  have h4 : u * (1 / 1000000) ≤ u * B := mul_le_mul_of_nonneg_left hB hu.le
  linarith

/-- A measurement and a fingerprint of a size that occurs. -/
structure Fine (w : List (String × ℝ)) (a : SigStat) : Prop where
  database : |a.database| ≤ 200
  measured : |a.measured| ≤ 200
  weight : 1 / 10 ^ 60 ≤ weightOf w a.txId

theorem diff_near {w : List (String × ℝ)} {a b : SigStat} (ha : Fine w a) (hb : Fine w b) :
    |diffF R a b - ((a.database - b.database) - (a.measured - b.measured))| ≤ 2 / 10 ^ 13 := by
  obtain ⟨a1, a2⟩ := abs_le.mp ha.database
  obtain ⟨a3, a4⟩ := abs_le.mp ha.measured
  obtain ⟨b1, b2⟩ := abs_le.mp hb.database
  obtain ⟨b3, b4⟩ := abs_le.mp hb.measured
  have hu := u_tight
  obtain ⟨r1, r2⟩ := abs_le.mp (rnd_off R (x := a.database - b.database) (B := 400) (abs_le.mpr ⟨by linarith, by linarith⟩) (by norm_num))
  obtain ⟨r3, r4⟩ := abs_le.mp (rnd_off R (x := a.measured - b.measured) (B := 400) (abs_le.mpr ⟨by linarith, by linarith⟩) (by norm_num))
  obtain ⟨r5, r6⟩ := abs_le.mp (rnd_off R (x := R.rnd (a.database - b.database) - R.rnd (a.measured - b.measured)) (B := 801)
    (abs_le.mpr ⟨by linarith, by linarith⟩) (by norm_num))
  unfold diffF
  rw [abs_le]
  constructor <;> linarith

theorem sum_near {w : List (String × ℝ)} {a : SigStat} (ha : Fine w a) :
    |R.rnd (a.database + a.measured) - (a.database + a.measured)| ≤ 2 / 10 ^ 13 := by
  obtain ⟨a1, a2⟩ := abs_le.mp ha.database
  obtain ⟨a3, a4⟩ := abs_le.mp ha.measured
  have hu := u_tight
  have := rnd_off R (x := a.database + a.measured) (B := 400) (abs_le.mpr ⟨by linarith, by linarith⟩) (by norm_num)
  linarith

/-! ## The sums -/

/-- The sums of penalties and of shares, after `j` additions. -/
structure Acc (a j : ℕ) (acc' acc : ℝ × ℝ) : Prop where
  penalty : Within (2 * 10 ^ 9 + a + 1 + j) acc'.1 acc.1
  share : Within (a + j) acc'.2 acc.2

theorem Acc.mono {a j j' : ℕ} {acc' acc : ℝ × ℝ} (h : Acc a j acc' acc) (hj : j ≤ j') : Acc a j' acc' acc :=
  ⟨h.penalty.mono (by omega), h.share.mono (by omega)⟩

theorem Acc.step {a j : ℕ} {acc' acc : ℝ × ℝ} (h : Acc a j acc' acc) (hj : 2 * 10 ^ 9 + a + 1 + j ≤ 3 * 10 ^ 9) {d' d A' A : ℝ}
    (hd : |d' - d| ≤ 2 / 10 ^ 13) (hA : Within a A' A) (hA1 : A ≤ 1) (hA0 : 2 * low ≤ A) :
    Acc a (j + 1) (R.rnd (acc'.1 + penaltyF R d' A'), R.rnd (acc'.2 + A')) (acc.1 + max (|d| * A) (1 / 1000000), acc.2 + A) := by
  constructor
  · have := (h.penalty.add ((penalty_within R hd hA hA1 (by omega)).mono (by omega))).rnd' R (by omega) (by
      have : 2 * low ≤ 1 / 1000000 := by unfold low; norm_num
      linarith [h.penalty.y0, le_max_right (|d| * A) (1 / 1000000)])
    exact this
  · exact (h.share.add (hA.mono (by omega))).rnd' R (by omega) (by linarith [h.share.y0])

theorem inner_within {a : ℕ} {wF w : List (String × ℝ)} (hw : ∀ id, Within a (weightOf wF id) (weightOf w id)) (hw1 : ∀ id, weightOf w id ≤ 1)
    {x : SigStat} (hx : Fine w x) (before : List SigStat) (hb : ∀ b ∈ before, Fine w b) {j : ℕ} {acc' acc : ℝ × ℝ}
    (h : Acc (2 * a + 1) j acc' acc) (hj : 2 * 10 ^ 9 + 2 * a + 2 + (j + before.length) ≤ 3 * 10 ^ 9) :
    Acc (2 * a + 1) (j + before.length) (accInnerF R wF x before acc') (accInner w x before acc) := by
  induction before generalizing j acc' acc with
  | nil => simpa [accInnerF, accInner] using h
  | cons b l ih =>
    have hb' := hb b List.mem_cons_self
    rw [List.length_cons] at hj
    have hxb : 1 / 10 ^ 60 * (1 / 10 ^ 60) ≤ weightOf w x.txId * weightOf w b.txId :=
      mul_le_mul hx.weight hb'.weight (by norm_num) (le_trans (by norm_num) hx.weight)
    have hlow : 2 * low ≤ 1 / 10 ^ 60 * (1 / 10 ^ 60) := by unfold low; norm_num
    have hA : Within (2 * a + 1) (R.rnd (weightOf wF x.txId * weightOf wF b.txId)) (weightOf w x.txId * weightOf w b.txId) := by
      have := (hw x.txId).mul (hw b.txId)
      rw [two_mul]
      exact this.rnd' R (by omega) (hlow.trans hxb)
    have hA1 : weightOf w x.txId * weightOf w b.txId ≤ 1 := mul_le_one₀ (hw1 _) (hw b.txId).y0 (hw1 _)
    have hs := h.step R (by omega) (diff_near R hx hb') hA hA1 (hlow.trans hxb)
    have := ih (fun c hc => hb c (List.mem_cons_of_mem _ hc)) hs (by omega)
    rw [List.length_cons, show j + (l.length + 1) = j + 1 + l.length by ring]
    exact this

theorem outer_within {a N : ℕ} {wF w : List (String × ℝ)} (hw : ∀ id, Within a (weightOf wF id) (weightOf w id))
    (hw1 : ∀ id, weightOf w id ≤ 1) (diffMode : Bool) (rest : List SigStat) (hr : ∀ b ∈ rest, Fine w b) (before : List SigStat)
    (hb : ∀ b ∈ before, Fine w b) (hN : before.length + rest.length ≤ N) {j : ℕ} {acc' acc : ℝ × ℝ} (h : Acc (2 * a + 1) j acc' acc)
    (hj : 2 * 10 ^ 9 + 2 * a + 2 + (j + rest.length * N) ≤ 3 * 10 ^ 9) :
    Acc (2 * a + 1) (j + rest.length * N) (accOuterF R wF diffMode before rest acc') (accOuter w diffMode before rest acc) := by
  induction rest generalizing before j acc' acc with
  | nil => simpa [accOuterF, accOuter] using h
  | cons x rest ih =>
    have hx := hr x List.mem_cons_self
    rw [List.length_cons] at hN hj
    have e : (rest.length + 1) * N = rest.length * N + N := by ring
    rw [e] at hj
    rw [List.length_cons, e, accOuterF, accOuter]
    have hstep : Acc (2 * a + 1) (j + N)
        (if diffMode then accInnerF R wF x before acc' else
          (R.rnd (acc'.1 + penaltyF R (R.rnd (x.database + x.measured)) (weightOf wF x.txId)), R.rnd (acc'.2 + weightOf wF x.txId)))
        (if diffMode then accInner w x before acc else
          (acc.1 + max (|x.database + x.measured| * weightOf w x.txId) (1 / 1000000), acc.2 + weightOf w x.txId)) := by
      cases diffMode with
      | true =>
        simp only [if_true]
        exact (inner_within R hw hw1 hx before hb h (by omega)).mono (by omega)
      | false =>
        simp only [Bool.false_eq_true, if_false]
        refine (h.step R (by omega) (sum_near R hx) ((hw x.txId).mono (by omega)) (hw1 _) ?_).mono (by omega)
        refine le_trans ?_ hx.weight
        unfold low; norm_num
    have := ih (fun b hb' => hr b (List.mem_cons_of_mem _ hb')) (before ++ [x])
      (by intro b hb'; rcases List.mem_append.mp hb' with h | h; exacts [hb b h, by rw [List.mem_singleton.mp h]; exact hx])
      (by rw [List.length_append, List.length_singleton]; omega) hstep (by omega)
    rw [show j + (rest.length * N + N) = j + N + rest.length * N by ring]
    exact this

/-! ## The weight of a reference point -/

theorem finish_within {a j n : ℕ} {acc' acc : ℝ × ℝ} (h : Acc a j acc' acc) (hk : 2 * 10 ^ 9 + 2 * a + 2 * j + 10 ≤ 3 * 10 ^ 9)
    (hS : 1 / 1000000 ≤ acc.1) (hS1 : acc.1 ≤ 10 ^ 20) (hn : 3 ≤ n) (hn1 : n ≤ 10 ^ 6)
    (hN : acc.2 ≤ 9 / 10 ^ 9 ∨ 11 / 10 ^ 9 ≤ acc.2) (hN1 : acc.2 ≤ 10 ^ 20) :
    Within (2 * 10 ^ 9 + 2 * a + 2 * j + 10) (finishWeightF R n acc') (combine n acc.1 acc.2) := by
  obtain ⟨S', N'⟩ := acc'
  obtain ⟨S, N⟩ := acc
  dsimp only at *
  have hp := h.penalty
  have hq := h.share
  dsimp only at hp hq
  have hS' := hp.large (by omega)
  have he : |R.rnd (1 / 100000000) - 1 / 100000000| ≤ 1 / 10 ^ 14 := by
    have := rnd_off R (x := 1 / 100000000) (B := 1) (by rw [abs_of_pos (by norm_num)]; norm_num) (by norm_num)
    have := u_tight
    linarith
  obtain ⟨he1, he2⟩ := abs_le.mp he
  have hSpos : 0 < S := by linarith
  have hnr : (3 : ℝ) ≤ n := by exact_mod_cast hn
  have hnr1 : (n : ℝ) ≤ 10 ^ 6 := by exact_mod_cast hn1
  unfold finishWeightF
  dsimp only
  rw [if_pos (show S' > R.rnd (1 / 100000000) by linarith), if_pos (show n > 0 by omega)]
  have hlow : low ≤ 1 / 10 ^ 100 := by unfold low; norm_num
  -- the normalised sum
  obtain ⟨V, V', hV', hV, hVpos, hVW, hV0, hV1⟩ : ∃ V V', V' = (if N' > R.rnd (1 / 100000000) then R.rnd (S' ÷ N') else S') ∧
      V = (if N > 1 / 100000000 then S / N else S) ∧ 0 < V ∧ Within (2 * 10 ^ 9 + 2 * a + 2 * j + 2) V' V ∧ 1 / 10 ^ 30 ≤ V ∧ V ≤ 10 ^ 30 := by
    refine ⟨_, _, rfl, rfl, ?_⟩
    rcases hN with hlo | hhi
    · have hN' : N' ≤ 9.5 / 10 ^ 9 := by
        have := hq.near (by omega)
        have := (abs_le.mp this).2
        linarith [hq.y0]
      rw [if_neg (show ¬ N > 1 / 100000000 by linarith), if_neg (show ¬ N' > R.rnd (1 / 100000000) by linarith)]
      exact ⟨hSpos, hp.mono (by omega), by linarith, by linarith⟩
    · have hN' : 10.5 / 10 ^ 9 ≤ N' := by
        have := hq.near (by omega)
        have := (abs_le.mp this).1
        linarith
      have hNpos : 0 < N := by linarith
      rw [if_pos (show N > 1 / 100000000 by linarith), if_pos (show N' > R.rnd (1 / 100000000) by linarith),
        divide_pos (show 0 < N' by linarith)]
      have hb0 : 1 / 10 ^ 30 ≤ S / N := by
        rw [div_le_div_iff₀ (by norm_num) hNpos]
        linarith
      refine ⟨div_pos hSpos hNpos, ?_, hb0, ?_⟩
      · refine ((hp.div hq hNpos).rnd' R (by omega) (by linarith)).mono (by omega)
      · rw [div_le_iff₀ hNpos]
        linarith
  rw [← hV']
  have hV'pos : 0 < V' := hVW.pos hVpos
  rw [root_eq hV'pos.le]
  have hr0 : 1 / 10 ^ 15 ≤ Real.sqrt V := by
    rw [Real.le_sqrt' (by norm_num)]
    refine le_trans ?_ hV0
    norm_num
  have hr1 : Real.sqrt V ≤ 10 ^ 15 := by
    rw [Real.sqrt_le_left (by norm_num)]
    refine hV1.trans ?_
    norm_num
  have h1 := hVW.sqrt.rnd' R (by omega) (by linarith)
  have hnW : Within 1 (R.rnd n) n := within_rnd R (by linarith)
  have hnpos : (0 : ℝ) < n := by linarith
  rw [divide_pos (hnW.pos hnpos)]
  have hq0 : 1 / 10 ^ 30 ≤ Real.sqrt V / n := by
    rw [div_le_div_iff₀ (by norm_num) hnpos]
    linarith
  have hq1 : Real.sqrt V / n ≤ 10 ^ 15 := by
    rw [div_le_iff₀ hnpos]
    linarith
  have h2 := (h1.div hnW hnpos).rnd' R (by omega) (by linarith)
  have h2p : 0 < Real.sqrt V / n := by linarith
  rw [divide_pos (h2.pos h2p)]
  have h3 := (h2.inv h2p).rnd' R (by omega) (by
    have : 1 / 10 ^ 15 ≤ 1 / (Real.sqrt V / n) := one_div_le_one_div_of_le h2p hq1
    linarith)
  have e : combine n S N = 1 / (Real.sqrt V / n) := by
    unfold combine
    rw [one_div_div, hV]
  rw [e]
  exact h3.mono (by omega)

/-! ## The weighted mean -/

theorem mean_bound {w1 w2 w3 c1 c2 c3 M : ℝ} (h1 : 0 ≤ w1) (h2 : 0 ≤ w2) (h3 : 0 ≤ w3) (hW : 0 < w1 + w2 + w3) (m1 : |c1| ≤ M) (m2 : |c2| ≤ M)
    (m3 : |c3| ≤ M) : |(w1 * c1 + w2 * c2 + w3 * c3) / (w1 + w2 + w3)| ≤ M := by
  rw [abs_div, abs_of_pos hW, div_le_iff₀ hW]
  have e1 : |w1 * c1| ≤ w1 * M := by rw [abs_mul, abs_of_nonneg h1]; exact mul_le_mul_of_nonneg_left m1 h1
  have e2 : |w2 * c2| ≤ w2 * M := by rw [abs_mul, abs_of_nonneg h2]; exact mul_le_mul_of_nonneg_left m2 h2
  have e3 : |w3 * c3| ≤ w3 * M := by rw [abs_mul, abs_of_nonneg h3]; exact mul_le_mul_of_nonneg_left m3 h3
  have := abs_add_three (w1 * c1) (w2 * c2) (w3 * c3)
  linarith

/-- The roundings of the mean, with the rounded weights. -/
theorem mean_round {w1 w2 w3 c1 c2 c3 M : ℝ} (h1 : 0 ≤ w1) (h2 : 0 ≤ w2) (h3 : 0 ≤ w3) (hW : 1 / 200 ≤ w1 + w2 + w3) (hM : 1 ≤ M)
    (m1 : |c1| ≤ M) (m2 : |c2| ≤ M) (m3 : |c3| ≤ M) :
    |meanF R w1 w2 w3 c1 c2 c3 (R.rnd (R.rnd (w1 + w2) + w3)) - (w1 * c1 + w2 * c2 + w3 * c3) / (w1 + w2 + w3)| ≤ 2 / 10 ^ 15 * M := by
  have hu := u_pos
  have hut := u_tight
  have hWp : 0 < w1 + w2 + w3 := by linarith
  have hq := mean_bound h1 h2 h3 hWp m1 m2 m3
  set W := w1 + w2 + w3 with hWd
  set q := (w1 * c1 + w2 * c2 + w3 * c3) / W with hqd
  have hqW : q * W = w1 * c1 + w2 * c2 + w3 * c3 := div_mul_cancel₀ _ hWp.ne'
  have hX : W * 1 ≤ W * M := mul_le_mul_of_nonneg_left hM hWp.le
  have e1 : |w1 * c1| ≤ w1 * M := by rw [abs_mul, abs_of_nonneg h1]; exact mul_le_mul_of_nonneg_left m1 h1
  have e2 : |w2 * c2| ≤ w2 * M := by rw [abs_mul, abs_of_nonneg h2]; exact mul_le_mul_of_nonneg_left m2 h2
  have e3 : |w3 * c3| ≤ w3 * M := by rw [abs_mul, abs_of_nonneg h3]; exact mul_le_mul_of_nonneg_left m3 h3
  have f1 : 0 ≤ w1 * M := by positivity
  have f2 : 0 ≤ w2 * M := by positivity
  have f3 : 0 ≤ w3 * M := by positivity
  have hsum : w1 * M + w2 * M + w3 * M = W * M := by rw [hWd]; ring
  have huX : u * (W * M) ≤ 12 / 10 ^ 17 * (W * M) := mul_le_mul_of_nonneg_right hut (by positivity)
  have huX0 : 0 ≤ u * (W * M) := by positivity
  have huW : u * W ≤ 12 / 10 ^ 17 * W := mul_le_mul_of_nonneg_right hut hWp.le
  have huW0 : 0 ≤ u * W := by positivity
  set X := W * M with hXd
  set a1 := w1 * c1
  set a2 := w2 * c2
  set a3 := w3 * c3
  obtain ⟨b1, b1'⟩ := abs_le.mp e1
  obtain ⟨b2, b2'⟩ := abs_le.mp e2
  obtain ⟨b3, b3'⟩ := abs_le.mp e3
  -- the sum
  obtain ⟨r1, r1'⟩ := abs_le.mp (rnd_off R (x := a1) (B := X) (by linarith) (by linarith))
  obtain ⟨r2, r2'⟩ := abs_le.mp (rnd_off R (x := a2) (B := X) (by linarith) (by linarith))
  obtain ⟨r3, r3'⟩ := abs_le.mp (rnd_off R (x := a3) (B := X) (by linarith) (by linarith))
  obtain ⟨r4, r4'⟩ := abs_le.mp (rnd_off R (x := R.rnd a1 + R.rnd a2) (B := 1.01 * X)
    (abs_le.mpr ⟨by linarith, by linarith⟩) (by linarith))
  obtain ⟨r5, r5'⟩ := abs_le.mp (rnd_off R (x := R.rnd (R.rnd a1 + R.rnd a2) + R.rnd a3) (B := 1.02 * X)
    (abs_le.mpr ⟨by linarith, by linarith⟩) (by linarith))
  -- the sum of the weights
  obtain ⟨n1, n1'⟩ := abs_le.mp (rnd_off R (x := w1 + w2) (B := W) (abs_le.mpr ⟨by linarith, by linarith⟩) (by linarith))
  obtain ⟨n2, n2'⟩ := abs_le.mp (rnd_off R (x := R.rnd (w1 + w2) + w3) (B := 1.01 * W) (abs_le.mpr ⟨by linarith, by linarith⟩) (by linarith))
  unfold meanF
  set s := R.rnd (R.rnd (R.rnd a1 + R.rnd a2) + R.rnd a3) with hs
  set n := R.rnd (R.rnd (w1 + w2) + w3) with hn
  have hsd : |s - (a1 + a2 + a3)| ≤ 5.1 * (u * X) := abs_le.mpr ⟨by linarith, by linarith⟩
  have hnd : |W - n| ≤ 2.1 * (u * W) := abs_le.mpr ⟨by linarith, by linarith⟩
  have hn0 : 99 / 100 * W ≤ n := by linarith
  have hnp : 0 < n := by linarith
  rw [divide_pos hnp]
  have hd : |s - q * n| ≤ 7.2 * (u * X) := by
    have e : s - q * n = (s - (a1 + a2 + a3)) + q * (W - n) := by rw [mul_sub, hqW]; ring
    rw [e]
    have g1 := abs_add_le (s - (a1 + a2 + a3)) (q * (W - n))
    have g2 : |q * (W - n)| ≤ M * (2.1 * (u * W)) := by
      rw [abs_mul]
      exact mul_le_mul hq hnd (abs_nonneg _) (by linarith)
    have : M * (2.1 * (u * W)) = 2.1 * (u * X) := by rw [hXd]; ring
    linarith
  have hsn : |s / n - q| ≤ 7.3 * u * M := by
    have e : s / n - q = (s - q * n) / n := by rw [sub_div, mul_div_assoc, div_self hnp.ne', mul_one]
    rw [e, abs_div, abs_of_pos hnp, div_le_iff₀ hnp]
    have g : 7.3 * u * M * (99 / 100 * W) ≤ 7.3 * u * M * n := mul_le_mul_of_nonneg_left hn0 (by positivity)
    have : 7.3 * u * M * (99 / 100 * W) = 7.227 * (u * X) := by rw [hXd]; ring
    linarith
  have huM : u * M ≤ 12 / 10 ^ 17 * M := mul_le_mul_of_nonneg_right hut (by linarith)
  have hb : |s / n| ≤ 1.01 * M := by
    have := abs_sub_abs_le_abs_sub (s / n) q
    linarith
  have hr := rnd_off R hb (by linarith)
  have := abs_sub_le (R.rnd (s / n)) (s / n) q
  linarith

/-- The mean with weights that are a little off. -/
theorem mean_move {w1 w2 w3 v1 v2 v3 c1 c2 c3 D : ℝ} (h1 : 0 ≤ w1) (h2 : 0 ≤ w2) (h3 : 0 ≤ w3) (hW : 0 < w1 + w2 + w3)
    (d1 : |v1 - w1| ≤ 8 / 10 ^ 7 * w1) (d2 : |v2 - w2| ≤ 8 / 10 ^ 7 * w2) (d3 : |v3 - w3| ≤ 8 / 10 ^ 7 * w3)
    (s12 : |c1 - c2| ≤ D) (s13 : |c1 - c3| ≤ D) (s23 : |c2 - c3| ≤ D) :
    |(v1 * c1 + v2 * c2 + v3 * c3) / (v1 + v2 + v3) - (w1 * c1 + w2 * c2 + w3 * c3) / (w1 + w2 + w3)| ≤ 1 / 10 ^ 6 * D := by
  set W := w1 + w2 + w3 with hWd
  set p := (w1 * c1 + w2 * c2 + w3 * c3) / W with hp
  have hpW : p * W = w1 * c1 + w2 * c2 + w3 * c3 := div_mul_cancel₀ _ hW.ne'
  have hD : 0 ≤ D := (abs_nonneg _).trans s12
  obtain ⟨q1, q1'⟩ := abs_le.mp d1
  obtain ⟨q2, q2'⟩ := abs_le.mp d2
  obtain ⟨q3, q3'⟩ := abs_le.mp d3
  have hV : 99 / 100 * W ≤ v1 + v2 + v3 := by rw [hWd]; linarith
  have hVp : 0 < v1 + v2 + v3 := by linarith
  have dist : ∀ c, |c - c1| ≤ D → |c - c2| ≤ D → |c - c3| ≤ D → |c - p| ≤ D := by
    intro c k1 k2 k3
    have e : (c - p) * W = w1 * (c - c1) + w2 * (c - c2) + w3 * (c - c3) := by rw [sub_mul, hpW, hWd]; ring
    have g1 : |w1 * (c - c1)| ≤ w1 * D := by rw [abs_mul, abs_of_nonneg h1]; exact mul_le_mul_of_nonneg_left k1 h1
    have g2 : |w2 * (c - c2)| ≤ w2 * D := by rw [abs_mul, abs_of_nonneg h2]; exact mul_le_mul_of_nonneg_left k2 h2
    have g3 : |w3 * (c - c3)| ≤ w3 * D := by rw [abs_mul, abs_of_nonneg h3]; exact mul_le_mul_of_nonneg_left k3 h3
    have g := abs_add_three (w1 * (c - c1)) (w2 * (c - c2)) (w3 * (c - c3))
    rw [← e, abs_mul, abs_of_pos hW] at g
    have : |c - p| * W ≤ D * W := by rw [hWd] at g ⊢; linarith
    exact le_of_mul_le_mul_right this hW
  have k1 := dist c1 (by simpa using hD) s12 s13
  have k2 := dist c2 (by rw [abs_sub_comm]; exact s12) (by simpa using hD) s23
  have k3 := dist c3 (by rw [abs_sub_comm]; exact s13) (by rw [abs_sub_comm]; exact s23) (by simpa using hD)
  have e : (v1 * c1 + v2 * c2 + v3 * c3) / (v1 + v2 + v3) - p =
      ((v1 - w1) * (c1 - p) + (v2 - w2) * (c2 - p) + (v3 - w3) * (c3 - p)) / (v1 + v2 + v3) := by
    rw [eq_div_iff hVp.ne', sub_mul, div_mul_cancel₀ _ hVp.ne']
    have : p * (w1 + w2 + w3) = w1 * c1 + w2 * c2 + w3 * c3 := hpW
    linarith
  rw [e, abs_div, abs_of_pos hVp, div_le_iff₀ hVp]
  have g1 : |(v1 - w1) * (c1 - p)| ≤ 8 / 10 ^ 7 * w1 * D := by rw [abs_mul]; exact mul_le_mul d1 k1 (abs_nonneg _) (by linarith)
  have g2 : |(v2 - w2) * (c2 - p)| ≤ 8 / 10 ^ 7 * w2 * D := by rw [abs_mul]; exact mul_le_mul d2 k2 (abs_nonneg _) (by linarith)
  have g3 : |(v3 - w3) * (c3 - p)| ≤ 8 / 10 ^ 7 * w3 * D := by rw [abs_mul]; exact mul_le_mul d3 k3 (abs_nonneg _) (by linarith)
  have g := abs_add_three ((v1 - w1) * (c1 - p)) ((v2 - w2) * (c2 - p)) ((v3 - w3) * (c3 - p))
  have gW : 8 / 10 ^ 7 * w1 * D + 8 / 10 ^ 7 * w2 * D + 8 / 10 ^ 7 * w3 * D = 8 / 10 ^ 7 * (W * D) := by rw [hWd]; ring
  have gV : 1 / 10 ^ 6 * D * (99 / 100 * W) ≤ 1 / 10 ^ 6 * D * (v1 + v2 + v3) := mul_le_mul_of_nonneg_left hV (by linarith)
  have gWD : 0 ≤ W * D := by positivity
  linarith

end Verif.Fp
