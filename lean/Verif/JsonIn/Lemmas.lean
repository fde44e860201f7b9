import Verif.JsonIn.Spec
import Mathlib.Algebra.Order.Floor.Ring
import Mathlib.Data.Int.ModEq
import Mathlib.Tactic.Linarith
import Mathlib.Tactic.Ring
import Mathlib.Tactic.NormNum
import Mathlib.Tactic.SplitIfs

/-!
# Helper lemmas for the readers of settings files and measurement logs
-/

namespace Verif.JsonIn

open Verif.Knn (Result)

theorem map_eq_ok {α β : Type} {r : Result α} {f : α → β} {b : β} :
    r.map f = .ok b ↔ ∃ a, r = .ok a ∧ f a = b := by
  cases r <;> simp [Result.map]

theorem map_eq_throws {α β : Type} {r : Result α} {f : α → β} : r.map f = .throws ↔ r = .throws := by
  cases r <;> simp [Result.map]

theorem map_eq_undefined {α β : Type} {r : Result α} {f : α → β} : r.map f = .undefined ↔ r = .undefined := by
  cases r <;> simp [Result.map]

theorem bind_eq_ok {α β : Type} {r : Result α} {f : α → Result β} {b : β} :
    r.bind f = .ok b ↔ ∃ a, r = .ok a ∧ f a = .ok b := by
  cases r <;> simp [Result.bind]

theorem bind_eq_throws {α β : Type} {r : Result α} {f : α → Result β} :
    r.bind f = .throws ↔ r = .throws ∨ ∃ a, r = .ok a ∧ f a = .throws := by
  cases r <;> simp [Result.bind]

theorem getDouble_eq_ok {j : Json} {x : ℝ} : getDouble j = .ok x ↔ NumberIs j x := by
  cases j <;> simp [getDouble, NumberIs, eq_comm]

theorem getDouble_eq_throws {j : Json} : getDouble j = .throws ↔ ¬ ∃ x, NumberIs j x := by
  cases j <;> simp [getDouble, NumberIs]

theorem getDouble_ne_undefined (j : Json) : getDouble j ≠ .undefined := by
  cases j <;> simp [getDouble]

theorem getBool_eq_ok {j : Json} {b : Bool} : getBool j = .ok b ↔ j = .bool b := by
  cases j <;> simp [getBool]

theorem getBool_eq_throws {j : Json} : getBool j = .throws ↔ ¬ ∃ b, j = .bool b := by
  cases j <;> simp [getBool]

theorem getBool_ne_undefined (j : Json) : getBool j ≠ .undefined := by
  cases j <;> simp [getBool]

theorem truncate_spec (x : ℝ) :
    |((truncate x : Int) : ℝ)| ≤ |x| ∧ |x - (truncate x : Int)| < 1 ∧ 0 ≤ x * (truncate x : Int) := by
  unfold truncate
  split_ifs with h
  · have h0 : (0 : ℝ) ≤ (⌊x⌋ : Int) := by exact_mod_cast Int.floor_nonneg.mpr h
    have h1 := Int.floor_le x
    have h2 := Int.lt_floor_add_one x
    rw [abs_of_nonneg h0, abs_of_nonneg h, abs_of_nonneg (by linarith)]
    exact ⟨h1, by linarith, mul_nonneg h h0⟩
  · push Not at h
    have h0 : ((⌈x⌉ : Int) : ℝ) ≤ 0 := by exact_mod_cast Int.ceil_le.mpr (by simpa using h.le)
    have h1 := Int.le_ceil x
    have h2 := Int.ceil_lt_add_one x
    rw [abs_of_nonpos h0, abs_of_neg h, abs_of_nonpos (by linarith)]
    exact ⟨by linarith, by linarith, mul_nonneg_of_nonpos_of_nonpos h.le h0⟩

theorem getUnsigned_spec {j : Json} {n : ℕ} (h : getUnsigned j = .ok n) :
    IntegerPart (2 ^ 32) j n ∧ n < 2 ^ 32 := by
  cases j with
  | int k =>
    simp only [getUnsigned, Result.ok.injEq] at h
    have h0 : 0 ≤ k % 2 ^ 32 := Int.emod_nonneg _ (by norm_num)
    have h1 : k % 2 ^ 32 < 2 ^ 32 := Int.emod_lt_of_pos _ (by norm_num)
    refine ⟨.inl ⟨k, rfl, ?_⟩, by omega⟩
    rw [← h, Int.toNat_of_nonneg h0]
    exact Int.mod_modEq _ _
  | bool b =>
    simp only [getUnsigned, Result.ok.injEq] at h
    subst h
    cases b <;> exact ⟨.inr (.inl ⟨_, rfl, by simp⟩), by norm_num⟩
  | real x =>
    simp only [getUnsigned] at h
    split_ifs at h with h1
    simp only [Result.ok.injEq] at h
    have h2 : (n : Int) = truncate x := by rw [← h, Int.toNat_of_nonneg h1.1]
    refine ⟨.inr (.inr ⟨x, rfl, ?_⟩), by omega⟩
    rw [h2]
    exact truncate_spec x
  | _ => simp [getUnsigned] at h

theorem getUnsigned_eq_throws {j : Json} :
    getUnsigned j = .throws ↔ ¬ ((∃ x, NumberIs j x) ∨ ∃ b, j = .bool b) := by
  cases j with
  | real x => simp only [getUnsigned]; split_ifs <;> simp [NumberIs]
  | _ => simp [getUnsigned, NumberIs]

theorem getSigned_spec {size : ℕ} (hs : 2 ≤ size) {j : Json} {k : Int} (h : getSigned size j = .ok k) :
    IntegerPart size j k ∧ -(size : Int) ≤ 2 * k ∧ 2 * k < size ∨ (∃ b, j = .bool b) ∧ IntegerPart size j k := by
  cases j with
  | int n =>
    simp only [getSigned, Result.ok.injEq] at h
    subst h
    refine .inl ⟨.inl ⟨n, rfl, ?_⟩, ?_, ?_⟩
    · exact Int.bmod_emod
    · have := Int.le_bmod (x := n) (m := size) (by omega); omega
    · have := Int.bmod_lt (x := n) (m := size) (by omega); omega
  | bool b =>
    simp only [getSigned, Result.ok.injEq] at h
    subst h
    exact .inr ⟨⟨b, rfl⟩, .inr (.inl ⟨b, rfl, by cases b <;> simp⟩)⟩
  | real x =>
    simp only [getSigned] at h
    split_ifs at h with h1
    simp only [Result.ok.injEq] at h
    subst h
    exact .inl ⟨.inr (.inr ⟨x, rfl, truncate_spec x⟩), h1⟩
  | _ => simp [getSigned] at h

theorem getLongLong_spec {j : Json} {k : Int} (h : getLongLong j = .ok k) :
    IntegerPart (2 ^ 64) j k ∧ -2 ^ 63 ≤ k ∧ k < 2 ^ 63 := by
  rcases getSigned_spec (by norm_num) h with ⟨h1, h2, h3⟩ | ⟨⟨b, rfl⟩, h1⟩
  · refine ⟨h1, ?_, ?_⟩ <;> push_cast at h2 h3 <;> omega
  · refine ⟨h1, ?_⟩
    simp only [getLongLong, getSigned, Result.ok.injEq] at h
    subst h
    cases b <;> norm_num

theorem getSigned_eq_throws {size : ℕ} {j : Json} :
    getSigned size j = .throws ↔ ¬ ((∃ x, NumberIs j x) ∨ ∃ b, j = .bool b) := by
  cases j with
  | real x => simp only [getSigned]; split_ifs <;> simp [NumberIs]
  | _ => simp [getSigned, NumberIs]

theorem getAlgorithm_spec {j : Json} {a : UseAlgorithm} (h : getAlgorithm j = .ok a) :
    Named algorithmName .PF_PDR j a := by
  cases j with
  | str s =>
    by_cases hs : ∃ b, s = algorithmName b
    · obtain ⟨b, rfl⟩ := hs
      cases b <;> simp [getAlgorithm, enumOfString, algorithmName] at h <;> subst h <;>
        exact .inl rfl
    · push Not at hs
      refine .inr ⟨by simpa using hs, ?_⟩
      have h1 := hs .PF_PDR; have h2 := hs .PF_NOPDR; have h3 := hs .ZONES; have h4 := hs .GRAPH; have h5 := hs .KNN
      simp only [algorithmName] at h1 h2 h3 h4 h5
      simp [getAlgorithm, enumOfString, List.find?, h1.symm, h2.symm, h3.symm, h4.symm, h5.symm] at h
      exact h.symm
  | _ => simp [getAlgorithm, enumOfString] at h; exact .inr ⟨by simp, h.symm⟩

theorem getMeasurementType_spec {j : Json} {a : MeasurementType} (h : getMeasurementType j = .ok a) :
    Named measurementTypeName .RSSI j a := by
  cases j with
  | str s =>
    by_cases hs : ∃ b, s = measurementTypeName b
    · obtain ⟨b, rfl⟩ := hs
      cases b <;> simp [getMeasurementType, enumOfString, measurementTypeName] at h <;> subst h <;>
        exact .inl rfl
    · push Not at hs
      refine .inr ⟨by simpa using hs, ?_⟩
      have h1 := hs .RSSI; have h2 := hs .DISTANCE_V1; have h3 := hs .DISTANCE_V2
      simp only [measurementTypeName] at h1 h2 h3
      simp [getMeasurementType, enumOfString, List.find?, h1.symm, h2.symm, h3.symm] at h
      exact h.symm
  | _ => simp [getMeasurementType, enumOfString] at h; exact .inr ⟨by simp, h.symm⟩

theorem getSignals_spec {j : Json} {a : SignalsToUse} (h : getSignals j = .ok a) :
    Named signalsName .BLE j a := by
  cases j with
  | str s =>
    by_cases hs : ∃ b, s = signalsName b
    · obtain ⟨b, rfl⟩ := hs
      cases b <;> simp [getSignals, enumOfString, signalsName] at h <;> subst h <;>
        exact .inl rfl
    · push Not at hs
      refine .inr ⟨by simpa using hs, ?_⟩
      have h1 := hs .BLE; have h2 := hs .WIFI; have h3 := hs .BOTH
      simp only [signalsName] at h1 h2 h3
      simp [getSignals, enumOfString, List.find?, h1.symm, h2.symm, h3.symm] at h
      exact h.symm
  | _ => simp [getSignals, enumOfString] at h; exact .inr ⟨by simp, h.symm⟩

theorem enumOfString_ok {α : Type} (a : α) (t : List (α × String)) (j : Json) :
    ∃ b, enumOfString a t j = .ok b := by
  unfold enumOfString
  cases j with
  | str s => dsimp only; cases t.find? (fun e => e.2 = s) <;> exact ⟨_, rfl⟩
  | _ => exact ⟨_, rfl⟩

theorem enumOfInt_ok {α : Type} (a : α) (t : List (α × Int)) (j : Json) :
    ∃ b, enumOfInt a t j = .ok b := by
  unfold enumOfInt
  cases j with
  | int s => dsimp only; cases t.find? (fun e => e.2 = s) <;> exact ⟨_, rfl⟩
  | real s => dsimp only; cases t.find? (fun e => (e.2 : ℝ) = s) <;> exact ⟨_, rfl⟩
  | _ => exact ⟨_, rfl⟩

theorem enumOfInt_mem {α : Type} {a b : α} {t : List (α × Int)} {j : Json} (h : enumOfInt a t j = .ok b) :
    b = a ∨ ∃ e ∈ t, e.1 = b := by
  unfold enumOfInt at h
  cases j with
  | int n =>
    dsimp only at h
    cases h1 : t.find? (fun e => e.2 = n) with
    | none => rw [h1] at h; simp only [Result.ok.injEq] at h; exact .inl h.symm
    | some e => rw [h1] at h; simp only [Result.ok.injEq] at h; exact .inr ⟨e, List.mem_of_find?_eq_some h1, h⟩
  | real x =>
    dsimp only at h
    cases h1 : t.find? (fun e => (e.2 : ℝ) = x) with
    | none => rw [h1] at h; simp only [Result.ok.injEq] at h; exact .inl h.symm
    | some e => rw [h1] at h; simp only [Result.ok.injEq] at h; exact .inr ⟨e, List.mem_of_find?_eq_some h1, h⟩
  | _ => simp only [Result.ok.injEq] at h; exact .inl h.symm

end Verif.JsonIn
