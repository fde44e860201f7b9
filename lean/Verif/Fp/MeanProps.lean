import Verif.Fp.MeanModel
import Verif.Fp.CmExample
import Verif.Radio.Props
import Verif.Estim.Props
import Verif.Nav.ZoneSpec

/-!
# Property theorems for C138: rounding and the strongest transmitter
-/

namespace Verif.Fp

open Verif.Levels Verif.Radio
open Verif.Nav (Strongest meanRssi)

variable (R : Rounding)

/-- Strengths as devices report them: whole numbers, not beyond 1000 in size; at most a million signals in the window. -/
structure WholeDbm (w : List RadioMeasurement) : Prop where
  whole : ∀ m ∈ w, ∃ k : ℤ, m.data.rssi = k ∧ |k| ≤ 1000
  size : w.length ≤ 10 ^ 6

theorem sum_exact (hR : Binary R) (l : List RadioMeasurement) (h : ∀ m ∈ l, ∃ k : ℤ, m.data.rssi = k ∧ |k| ≤ 1000) :
    ∀ z : ℤ, |z| + 1000 * l.length ≤ 2 ^ 53 →
      ∃ t : ℤ, l.foldl (fun sum m => R.rnd (sum + m.data.rssi)) (z : ℝ) = t ∧
        l.foldl (fun sum m => sum + m.data.rssi) (z : ℝ) = t ∧ |t| ≤ |z| + 1000 * l.length := by
  induction l with
  | nil => intro z _; exact ⟨z, rfl, rfl, by simp⟩
  | cons m l ih =>
    intro z hz
    obtain ⟨k, hk, hk2⟩ := h m (by simp)
    simp only [List.length_cons, Nat.cast_add, Nat.cast_one] at hz ⊢
    have h1 := abs_add_le z k
    have h2 : R.rnd ((z : ℝ) + m.data.rssi) = ((z + k : ℤ) : ℝ) := by
      rw [hk]
      have := rnd_int R hR (n := z + k) (by omega)
      push_cast at this ⊢
      exact this
    obtain ⟨t, a, b, d⟩ := ih (fun m hm => h m (by simp [hm])) (z + k) (by omega)
    refine ⟨t, ?_, ?_, by omega⟩
    · rw [List.foldl_cons, h2]; exact a
    · rw [List.foldl_cons, hk]; push_cast at b; exact b

theorem range_eq (hR : Binary R) (x : RadioMeasurement) (l : List RadioMeasurement) (h : WholeDbm l) :
    (averageRangeF R x l).rssi = R.rnd (averageRange x l).rssi := by
  have hs := h.size
  obtain ⟨t, a, b, -⟩ := sum_exact R hR l h.whole 0 (by
    rw [abs_zero]
    have : (l.length : ℤ) ≤ 10 ^ 6 := by exact_mod_cast hs
    norm_num at this ⊢
    omega)
  simp only [Int.cast_zero] at a b
  simp only [averageRangeF, averageRange, a, b]

theorem loop_eq (hR : Binary R) (l : List RadioMeasurement) (h : WholeDbm l) :
    (averageLoopF R l).map (fun e => (e.id, e.rssi)) = (averageLoop l).map (fun e => (e.id, R.rnd e.rssi)) := by
  induction l using averageLoop.induct with
  | case1 => simp [averageLoop, averageLoopF]
  | case2 x xs ih =>
    rw [averageLoop, averageLoopF, List.map_cons, List.map_cons]
    have htake : WholeDbm (x :: xs.takeWhile (fun m => !decide (x.data.id < m.data.id))) := by
      refine ⟨fun m hm => h.whole m ?_, le_trans ?_ h.size⟩
      · rcases List.mem_cons.mp hm with rfl | hm
        · simp
        · exact List.mem_cons_of_mem _ ((List.takeWhile_prefix _).subset hm)
      · simp only [List.length_cons]
        exact Nat.succ_le_succ (List.takeWhile_prefix _).length_le
    have hdrop : WholeDbm (xs.dropWhile (fun m => !decide (x.data.id < m.data.id))) := by
      refine ⟨fun m hm => h.whole m (List.mem_cons_of_mem _ ((List.dropWhile_suffix _).subset hm)), le_trans ?_ h.size⟩
      exact (List.dropWhile_suffix _).length_le.trans (Nat.le_succ _)
    rw [ih hdrop, range_eq R hR x _ htake]
    rfl

/-- A mean of whole strengths. -/
def Fraction (r : ℝ) : Prop := |r| ≤ 1000 ∧ ∃ (t : ℤ) (n : ℕ), 0 < n ∧ n ≤ 10 ^ 6 ∧ r = t / n

theorem fraction_mean (l : List RadioMeasurement) (hne : l ≠ []) (h : WholeDbm l) : Fraction (mean (l.map (·.data.rssi))) := by
  have hn : 0 < l.length := List.length_pos_of_ne_nil hne
  have key : ∀ l : List RadioMeasurement, (∀ m ∈ l, ∃ k : ℤ, m.data.rssi = k ∧ |k| ≤ 1000) →
      ∃ t : ℤ, (l.map (·.data.rssi)).sum = t ∧ |t| ≤ 1000 * l.length := by
    intro l
    induction l with
    | nil => intro _; exact ⟨0, by simp, by simp⟩
    | cons m l ih =>
      intro h
      obtain ⟨t, a, b⟩ := ih (fun m hm => h m (by simp [hm]))
      obtain ⟨k, c, d⟩ := h m (by simp)
      refine ⟨k + t, by rw [List.map_cons, List.sum_cons, a, c]; push_cast; rfl, ?_⟩
      have := abs_add_le k t
      simp only [List.length_cons, Nat.cast_add, Nat.cast_one]
      omega
  obtain ⟨t, a, b⟩ := key l h.whole
  have hn' : (0 : ℝ) < l.length := by exact_mod_cast hn
  refine ⟨?_, t, l.length, hn, h.size, by unfold mean; rw [a, List.length_map]⟩
  unfold mean
  rw [a, List.length_map, abs_div, abs_of_pos hn', div_le_iff₀ hn']
  have : |(t : ℝ)| ≤ 1000 * l.length := by exact_mod_cast b
  exact this

/-- Rounding keeps the order of such means. -/
theorem fraction_lt {r q : ℝ} (hr : Fraction r) (hq : Fraction q) (h : r < q) : R.rnd r < R.rnd q := by
  obtain ⟨br, t, n, n0, n1, rfl⟩ := hr
  obtain ⟨bq, t', n', n0', n1', rfl⟩ := hq
  have hn : (0 : ℝ) < n := by exact_mod_cast n0
  have hn' : (0 : ℝ) < n' := by exact_mod_cast n0'
  have hgap : 1 / 10 ^ 12 ≤ (t' : ℝ) / n' - t / n := by
    rw [div_lt_div_iff₀ hn hn'] at h
    have h2 : t * n' < t' * n := by exact_mod_cast h
    have h3 : (1 : ℝ) ≤ t' * n - t * n' := by
      have : (1 : ℤ) ≤ t' * n - t * n' := by omega
      exact_mod_cast this
    rw [div_sub_div _ _ hn'.ne' hn.ne']
    have hnn : (n' : ℝ) * n ≤ 10 ^ 12 := by
      have a1 : (n : ℝ) ≤ 10 ^ 6 := by exact_mod_cast n1
      have a2 : (n' : ℝ) ≤ 10 ^ 6 := by exact_mod_cast n1'
      calc (n' : ℝ) * n ≤ 10 ^ 6 * 10 ^ 6 := mul_le_mul a2 a1 hn.le (by norm_num)
        _ = 10 ^ 12 := by norm_num
    rw [div_le_div_iff₀ (by norm_num) (mul_pos hn' hn)]
    nlinarith
  have e1 := rnd_bound R _ _ br
  have e2 := rnd_bound R _ _ bq
  rw [u_eq, abs_le] at e1 e2
  have ht := tiny_le20
  have e3 : (1 : ℝ) / 2 ^ 53 * 1000 ≤ 2 / 10 ^ 13 := by norm_num
  have e4 : (1 : ℝ) / 10 ^ 20 ≤ 1 / 10 ^ 14 := by norm_num
  have e5 : (2 : ℝ) * (2 / 10 ^ 13 + 1 / 10 ^ 14) < 1 / 10 ^ 12 := by norm_num
  linarith [e1.2, e2.1]

/-- The averages of a window in floating point: one per transmitter, in the order of the ids, each the rounded mean. -/
theorem averages_spec (hR : Binary R) {s : Sorts} (hs : s.Lawful) {w : List RadioMeasurement} (hw : WholeDbm w) :
    ((averagesF R s w).map RadioData.id).Pairwise (· < ·) ∧
    (∀ id, (∃ e ∈ averagesF R s w, e.id = id) ↔ ∃ m ∈ w, m.data.id = id) ∧
    ∀ e ∈ averagesF R s w, e.rssi = R.rnd (meanRssi w e.id) := by
  have hperm := hs.byId.perm w
  have hw' : WholeDbm (s.byId w) := ⟨fun m hm => hw.whole m (hperm.mem_iff.mp hm), hperm.length_eq ▸ hw.size⟩
  obtain ⟨h1, h2, h3⟩ := averageLoop_spec _ (hs.byId.sorted w)
  have heq := loop_eq R hR _ hw'
  have hids : (averagesF R s w).map RadioData.id = (averageLoop (s.byId w)).map RadioData.id := by
    have := congrArg (List.map Prod.fst) heq
    rw [List.map_map, List.map_map] at this
    exact this
  refine ⟨hids ▸ h1, fun id => ?_, fun e he => ?_⟩
  · have : (∃ e ∈ averagesF R s w, e.id = id) ↔ id ∈ (averagesF R s w).map RadioData.id := by simp
    rw [this, hids, h2 id]
    simp only [List.mem_map, hperm.mem_iff]
  · have hm : (e.id, e.rssi) ∈ (averageLoopF R (s.byId w)).map (fun e => (e.id, e.rssi)) := List.mem_map.mpr ⟨e, he, rfl⟩
    rw [heq, List.mem_map] at hm
    obtain ⟨e', he', h4⟩ := hm
    rw [Prod.mk.injEq] at h4
    rw [← h4.2, (h3 e' he').1, h4.1]
    unfold meanRssi
    have hp2 : ((ofTransmitter e.id (s.byId w)).map (·.data.rssi)).Perm ((ofTransmitter e.id w).map (·.data.rssi)) :=
      (hperm.filter _).map _
    unfold mean
    rw [hp2.sum_eq, hp2.length_eq]

/-- **C138.** With whole strengths, the zone found from the averages in floating point is the transmitter of the level with the
greatest mean strength (exactly, of equals the smallest id), and the strength used for its radius is that mean up to `2⁻⁴³`. -/
theorem C138_zone (hR : Binary R) {s : Sorts} (hs : s.Lawful) {w : List RadioMeasurement} (hw : WholeDbm w)
    (A B : List (String × ℝ)) (lv : Level) (ts : Int) :
    let known := w.filter (fun m => (lv.transmitter m.data.id).isSome)
    (known = [] → Estim.zonePosition A B lv ts (averagesF R s w) = (.NO_SOLUTION, Position.default)) ∧
    (known ≠ [] → ∃ b t prec rssi, Strongest known b ∧ lv.transmitter b = some t ∧
      Estim.zonePosition A B lv ts (averagesF R s w) = (.OK, ⟨t.point.x, t.point.y, lv.id, prec, ts, false, .INDOOR, 0⟩) ∧
      |rssi - meanRssi known b| ≤ 1 / 2 ^ 43 ∧
      ∀ a c, StdMap.find? A lv.id = some a → StdMap.find? B lv.id = some c → c ≠ 0 →
        1 < prec ∧ prec = Real.exp ((a - rssi) / (2 * c)) + 1) := by
  intro known
  obtain ⟨h1, h2, h3⟩ := averages_spec R hR hs hw
  obtain ⟨z1, z2⟩ := Estim.C33_zone A B lv ts (averagesF R s w)
  have hmean : ∀ id, (lv.transmitter id).isSome → meanRssi known id = meanRssi w id := by
    intro id hid
    unfold meanRssi ofTransmitter
    rw [show known = w.filter (fun m => (lv.transmitter m.data.id).isSome) from rfl, List.filter_filter]
    have : w.filter (fun m => decide (m.data.id = id) && (lv.transmitter m.data.id).isSome) =
        w.filter (fun m => decide (m.data.id = id)) := by
      apply List.filter_congr
      intro m _
      by_cases hm : m.data.id = id
      · simp [hm, hid]
      · simp [hm]
    rw [this]
  have hfr : ∀ id, (∃ m ∈ w, m.data.id = id) → Fraction (meanRssi w id) := by
    rintro id ⟨m, hm, hid⟩
    refine fraction_mean _ ?_ ⟨fun m hm => hw.whole m (List.mem_filter.mp hm).1, (List.length_filter_le _ _).trans hw.size⟩
    exact List.ne_nil_of_mem (List.mem_filter.mpr ⟨hm, by simpa using hid⟩)
  constructor
  · intro hk
    refine z1 ?_
    rw [List.filter_eq_nil_iff]
    intro e he hs
    obtain ⟨m, hm, hid⟩ := (h2 e.id).mp ⟨e, he, rfl⟩
    rw [show known = w.filter (fun m => (lv.transmitter m.data.id).isSome) from rfl, List.filter_eq_nil_iff] at hk
    exact hk m hm (hid ▸ hs)
  · intro hk
    obtain ⟨m0, hm0⟩ := List.exists_mem_of_ne_nil known hk
    have hm0' := List.mem_filter.mp hm0
    obtain ⟨e0, he0, hid0⟩ := (h2 m0.data.id).mpr ⟨m0, hm0'.1, rfl⟩
    obtain ⟨bef, m, aft, t, prec, a1, a2, a3, a4, a5, a6⟩ := z2 (List.ne_nil_of_mem (List.mem_filter.mpr ⟨he0, by
      rw [hid0]; exact hm0'.2⟩))
    have hmem : m ∈ (averagesF R s w).filter (fun m => (lv.transmitter m.id).isSome) := by rw [a1]; simp
    obtain ⟨hm1, hm2⟩ := List.mem_filter.mp hmem
    obtain ⟨x, hx, hxid⟩ := (h2 m.id).mp ⟨m, hm1, rfl⟩
    refine ⟨m.id, t, prec, m.rssi, ⟨⟨x, List.mem_filter.mpr ⟨hx, by rw [hxid]; exact hm2⟩, hxid⟩, ?_⟩, a4, a5, ?_, a6⟩
    · intro v hv
      obtain ⟨hv1, hv2⟩ := List.mem_filter.mp hv
      obtain ⟨e, he, hid⟩ := (h2 v.data.id).mpr ⟨v, hv1, rfl⟩
      rw [hmean _ hv2, hmean _ hm2]
      have hef : e ∈ (averagesF R s w).filter (fun m => (lv.transmitter m.id).isSome) :=
        List.mem_filter.mpr ⟨he, by rw [hid]; exact hv2⟩
      have hsort : (((averagesF R s w).filter (fun m => (lv.transmitter m.id).isSome)).map RadioData.id).Pairwise (· < ·) :=
        h1.sublist (List.Sublist.map _ List.filter_sublist)
      rw [a1] at hef hsort
      have hle : e.rssi ≤ m.rssi := by
        rcases List.mem_append.mp hef with h | h
        · exact (a2 e h).le
        · rcases List.mem_cons.mp h with rfl | h
          · exact le_rfl
          · exact a3 e h
      have hfe := hfr v.data.id ⟨v, hv1, rfl⟩
      have hfm := hfr m.id ⟨x, hx, hxid⟩
      rw [h3 e he, h3 m hm1, hid] at hle
      rcases lt_trichotomy (meanRssi w v.data.id) (meanRssi w m.id) with h | h | h
      · exact Or.inl h
      · refine Or.inr ⟨h, ?_⟩
        rcases List.mem_append.mp hef with h' | h'
        · have := a2 e h'
          rw [h3 e he, h3 m hm1, hid, h] at this
          exact absurd this (lt_irrefl _)
        · rcases List.mem_cons.mp h' with rfl | h'
          · exact hid ▸ le_rfl
          · rw [List.map_append, List.map_cons, List.pairwise_append] at hsort
            exact hid ▸ ((List.pairwise_cons.mp hsort.2.1).1 e.id (List.mem_map_of_mem h')).le
      · exact absurd (fraction_lt R hfm hfe h) (not_lt.mpr hle)
    · rw [h3 m hm1, hmean _ hm2]
      have hb := rnd_bound R _ _ (hfr m.id ⟨x, hx, hxid⟩).1
      rw [u_eq] at hb
      refine hb.trans ?_
      have ht := tiny_le20
      have e3 : (1 : ℝ) / 2 ^ 53 * 1000 + 1 / 10 ^ 20 ≤ 1 / 2 ^ 43 := by norm_num
      linarith

end Verif.Fp
