import Verif.LevelEst.Model
import Verif.Radio.Spec
import Verif.Radio.Lemmas

/-!
# C27: detecting the level from the levels' transmitters
-/

namespace Verif.LevelEst

open Verif.Levels
open Verif.Radio (mean)

/-- The measurements of transmitters that belong to the level. -/
def heardOn (l : Level) (msr : List RadioData) : List RadioData :=
  msr.filter (fun m => l.containsTransmitter m.id)

/-- The `A` parameter of a transmitter of the level. -/
noncomputable def paramA (l : Level) (tx : String) : ℝ :=
  match StdMap.find? l.transmitters tx with
  | some t => t.pathloss.A
  | none => 0

/-- The score of a level: mean rssi (plus mean `A` if transmitter powers are used) of its
measurements, divided by `1 + n / (10 N)`. -/
noncomputable def score (useTxPower : Bool) (msr : List RadioData) (l : Level) : ℝ :=
  (mean ((heardOn l msr).map RadioData.rssi) +
    (if useTxPower then mean ((heardOn l msr).map (fun m => paramA l m.id)) else 0)) /
  (1 + (heardOn l msr).length / (10 * msr.length))

theorem foldl_sum_map {α : Type*} (f : α → ℝ) (l : List α) (a : ℝ) :
    l.foldl (fun a m => a + f m) a = a + (l.map f).sum := by
  induction l generalizing a with
  | nil => simp
  | cons x l ih => simp [ih, add_assoc]

theorem avg_eq (l : List ℝ) (h : l ≠ []) (n : ℕ) (hn : n = l.length) : l.sum ÷ (max n 1 : ℕ) = mean l := by
  rw [divide_pos (by positivity)]
  unfold mean
  have : 1 ≤ l.length := by cases l <;> simp_all
  rw [hn, max_eq_left this]

theorem foldlM_A (l : Level) (msr : List RadioData) (a : ℝ) (h : ∀ m ∈ msr, l.containsTransmitter m.id = true) :
    msr.foldlM (fun a m => (l.transmitter m.id).map (fun t => a + t.pathloss.A)) a =
      some (a + (msr.map (fun m => paramA l m.id)).sum) := by
  induction msr generalizing a with
  | nil => simp
  | cons m msr ih =>
    have hm := h m List.mem_cons_self
    unfold Level.containsTransmitter at hm
    obtain ⟨t, ht⟩ := Option.isSome_iff_exists.mp hm
    have : l.transmitter m.id = some t := ht
    rw [List.foldlM_cons, this]
    simp only [Option.map_some, Option.bind_eq_bind, Option.bind_some]
    rw [ih _ (fun k hk => h k (List.mem_cons_of_mem _ hk))]
    simp [paramA, ht, add_assoc]

theorem levelCost_eq (useTx : Bool) (msr : List RadioData) (l : Level) (h : heardOn l msr ≠ []) :
    levelCost useTx msr (heardOn l msr) l = some (score useTx msr l) := by
  have hr : getAverageRssi (heardOn l msr) = mean ((heardOn l msr).map RadioData.rssi) := by
    unfold getAverageRssi
    rw [foldl_sum_map, zero_add]
    have := avg_eq ((heardOn l msr).map RadioData.rssi) (by simpa using h) (heardOn l msr).length (by simp)
    rw [← this]
  have ha : getAverageA l (heardOn l msr) = some (mean ((heardOn l msr).map (fun m => paramA l m.id))) := by
    unfold getAverageA
    rw [foldlM_A l _ 0 (by intro m hm; simpa [heardOn] using (List.mem_filter.mp hm).2)]
    have := avg_eq ((heardOn l msr).map (fun m => paramA l m.id)) (by simpa using h) (heardOn l msr).length (by simp)
    simp only [zero_add]
    rw [← this]
  have hw : ∀ x y : ℝ, 1 + 10⁻¹ * x / y = 1 + x / (10 * y) := by
    intro x y; rw [inv_mul_eq_div, div_div]
  have hm : (0 : ℝ) < msr.length := by
    have : msr ≠ [] := by rintro rfl; simp [heardOn] at h
    exact_mod_cast List.length_pos_of_ne_nil this
  unfold levelCost score
  dsimp only
  rw [divide_pos hm]
  cases useTx
  · simp only [Bool.false_eq_true, if_false, hr]
    rw [divide_pos (by positivity)]
    simp [hw]
  · simp only [if_true, hr, ha]
    rw [divide_pos (by positivity)]
    simp [hw]

/-- **C27.** Detection never throws. The detected level is heard, has a score above −1000, every
earlier heard level scores less and every later one at most as much; the id is empty exactly when
no heard level scores above −1000. -/
theorem C27_detected (useTx : Bool) (ls : List Level) (msr : List RadioData) (c : LevelCollector) (hc : c.levels = ls) :
    ∃ r, FirstMax (fun l => heardOn l msr ≠ []) (score useTx msr) (-1000) ls r ∧
      detectByTransmitters useTx c msr = some (match r with | some l => l.id | none => "") := by
  subst hc
  obtain ⟨r, hr, hf⟩ := firstMax_fold (fun l => heardOn l msr ≠ []) (score useTx msr) Level.id (-1000) "" c.levels
  refine ⟨r, hr, ?_⟩
  have hstep : ∀ (b : ℝ × String) (l : Level), detectStep useTx msr b l = some
      (if heardOn l msr ≠ [] then (if score useTx msr l > b.1 then (score useTx msr l, l.id) else b) else b) := by
    intro b l
    unfold detectStep
    have : getLevelRadioMeasurements RadioData.id l msr = heardOn l msr := rfl
    rw [this]
    dsimp only
    by_cases h : heardOn l msr = []
    · simp [h]
    · rw [levelCost_eq useTx msr l h]
      simp [h]
  have hfold : ∀ (ls : List Level) (b : ℝ × String), ls.foldlM (detectStep useTx msr) b = some
      (ls.foldl (fun b l => if heardOn l msr ≠ [] then (if score useTx msr l > b.1 then (score useTx msr l, l.id) else b) else b) b) := by
    intro ls
    induction ls with
    | nil => intro b; rfl
    | cons l ls ih => intro b; rw [List.foldlM_cons, hstep]; exact ih _
  unfold detectByTransmitters
  rw [hfold, hf]
  cases r <;> rfl

/-- **C27.** Without transmitter powers and with every rssi above −1000 the id is that of a level
with a measurement as soon as one exists, and empty otherwise. -/
theorem C27_some_level (c : LevelCollector) (msr : List RadioData) (hr : ∀ m ∈ msr, -1000 < m.rssi ∧ m.rssi ≤ 0) :
    ((∀ l ∈ c.levels, heardOn l msr = []) ∧ detectByTransmitters false c msr = some "") ∨
    ∃ l ∈ c.levels, heardOn l msr ≠ [] ∧ detectByTransmitters false c msr = some l.id := by
  obtain ⟨r, h1, h2⟩ := C27_detected false c.levels msr c rfl
  cases r with
  | some l =>
    right
    obtain ⟨bef, aft, hl, hok, -⟩ := h1
    exact ⟨l, by rw [hl]; simp, hok, h2⟩
  | none =>
    left
    refine ⟨?_, h2⟩
    intro l hl
    by_contra hne
    have hs := h1 l hl hne
    have hb : ∀ x ∈ (heardOn l msr).map RadioData.rssi, -1000 < x ∧ x ≤ 0 := by
      intro x hx
      obtain ⟨m, hm, rfl⟩ := List.mem_map.mp hx
      exact hr m (List.mem_of_mem_filter hm)
    have hmean : -1000 < mean ((heardOn l msr).map RadioData.rssi) := by
      unfold mean
      have hlen : 0 < ((heardOn l msr).map RadioData.rssi).length := by
        rw [List.length_map]; exact List.length_pos_iff.mpr hne
      rw [lt_div_iff₀ (by exact_mod_cast hlen)]
      have : ∀ L : List ℝ, L ≠ [] → (∀ x ∈ L, -1000 < x ∧ x ≤ 0) → -1000 * (L.length : ℝ) < L.sum := by
        intro L
        induction L with
        | nil => intro h; exact absurd rfl h
        | cons a L ih =>
          intro _ h
          have ha := (h a List.mem_cons_self).1
          by_cases hL : L = []
          · subst hL; simpa using ha
          · have := ih hL (fun x hx => h x (List.mem_cons_of_mem _ hx))
            simp only [List.length_cons, List.sum_cons]; push_cast; linarith
      exact this _ (by simpa using hne) hb
    have hw : 1 ≤ 1 + ((heardOn l msr).length : ℝ) / (10 * msr.length) := by
      have : 0 ≤ ((heardOn l msr).length : ℝ) / (10 * msr.length) := by positivity
      linarith
    unfold score at hs
    simp only [Bool.false_eq_true, if_false, add_zero] at hs
    rw [div_le_iff₀ (by linarith)] at hs
    linarith

/-- Two levels; the second has a stronger transmitter and is detected. -/
example (g : LevelGeometry) (gr : NavGraph.Graph Geo.XYPoint) :
    let tx : String → Transmitter XYZPoint := fun id => ⟨id, ⟨0, 0, 0⟩, ⟨0, 0, 0⟩, .BEACON⟩
    let l1 : Level := ⟨"L1", ⟨0, 0⟩, [("a", tx "a")], ⟨[], []⟩, g, gr⟩
    let l2 : Level := ⟨"L2", ⟨0, 0⟩, [("b", tx "b")], ⟨[], []⟩, g, gr⟩
    let msr : List RadioData := [⟨.BEACON, "a", -80, 0, 0, 0⟩, ⟨.BEACON, "b", -70, 0, 0, 0⟩]
    detectByTransmitters false ⟨[l1, l2], []⟩ msr = some "L2" := by
  intro tx l1 l2 msr
  obtain ⟨r, h1, h2⟩ := C27_detected false [l1, l2] msr ⟨[l1, l2], []⟩ rfl
  have e1 : heardOn l1 msr = [⟨.BEACON, "a", -80, 0, 0, 0⟩] := by
    simp [heardOn, l1, msr, Level.containsTransmitter, StdMap.find?, tx]
  have e2 : heardOn l2 msr = [⟨.BEACON, "b", -70, 0, 0, 0⟩] := by
    simp [heardOn, l2, msr, Level.containsTransmitter, StdMap.find?, tx]
  have s1 : score false msr l1 = -80 / (1 + 1 / 20) := by
    simp [score, e1, mean, msr]; norm_num
  have s2 : score false msr l2 = -70 / (1 + 1 / 20) := by
    simp [score, e2, mean, msr]; norm_num
  cases r with
  | none =>
    have := h1 l1 (by simp) (by show heardOn l1 msr ≠ []; rw [e1]; simp)
    rw [s1] at this; norm_num at this
  | some l =>
    rw [h2]
    obtain ⟨bef, aft, hl, -, -, hb, ha⟩ := h1
    rcases bef with _ | ⟨x, bef⟩
    · simp only [List.nil_append, List.cons.injEq] at hl
      obtain ⟨rfl, rfl⟩ := hl
      have := ha l2 (by simp) (by show heardOn l2 msr ≠ []; rw [e2]; simp)
      rw [s1, s2] at this; norm_num at this
    · simp only [List.cons_append, List.cons.injEq] at hl
      rcases bef with _ | ⟨y, bef⟩
      · simp only [List.nil_append, List.cons.injEq] at hl
        rw [← hl.2.1]
      · simp at hl

end Verif.LevelEst
