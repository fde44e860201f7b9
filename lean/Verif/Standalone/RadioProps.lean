import Verif.Standalone.RadioModel
import Verif.Radio.Lemmas
import Mathlib.Data.String.Basic

/-!
# Property theorems for the standalone measurement preprocessor: C70
-/

namespace Verif.Standalone

open Verif.Radio (mean mean_perm mean_bounds foldl_add_eq_sum takeWhile_eq_filter dropWhile_eq_filter truncToInt)

/-! ## Specification

The reference: a clock and a mark (the clock at the last report, or at the first measurement), and the window as a
collection without order. -/

/-- A call of the preprocessor. -/
inductive PreOp where
  | update (m : Msr)
  | extract

/-- The settings of the constructor. -/
structure PreSettings where
  averageSec : ℝ
  shiftSec : ℝ
  useWifi : Bool
  useBle : Bool

/-- The averaging time in milliseconds. -/
noncomputable def PreSettings.average (c : PreSettings) : Int := truncToInt (1000 * c.averageSec)

/-- The time between two reports: the configured shift, or the averaging time if that is zero or larger. -/
noncomputable def PreSettings.shift (c : PreSettings) : Int :=
  if truncToInt (1000 * c.shiftSec) = 0 ∨ c.average < truncToInt (1000 * c.shiftSec) then c.average
  else truncToInt (1000 * c.shiftSec)

/-- The measurements that count: of an enabled kind, with an RSSI strictly between -100 and 0. -/
def Counts (c : PreSettings) (m : Msr) : Prop :=
  (match m.type with | .WIFI => c.useWifi | .BEACON => c.useBle) = true ∧ -100 < m.rssi ∧ m.rssi < 0

/-- The reference state; `times` is the clock and the mark. -/
structure Ref where
  times : Option (Int × Int)
  window : List Msr

/-- A report is due. -/
def Due (c : PreSettings) (r : Ref) : Prop := ∃ clock mark, r.times = some (clock, mark) ∧ c.shift ≤ clock - mark

open Classical in
/-- One call on the reference. -/
noncomputable def Ref.step (c : PreSettings) (r : Ref) : PreOp → Ref
  | .update m =>
    if Counts c m then
      match r.times with
      | none => ⟨some (m.ts, m.ts), []⟩
      | some (clock, mark) => ⟨some (max clock m.ts, mark), if mark < m.ts then r.window ++ [m] else r.window⟩
    else r
  | .extract =>
    match r.times with
    | none => r
    | some (clock, mark) =>
      if c.shift ≤ clock - mark then
        ⟨some (clock, clock), if c.shift = c.average then []
          else r.window.filter (fun m => decide (clock - (c.average - c.shift) ≤ m.ts))⟩
      else r

/-- The reference after a history. -/
noncomputable def refRun (c : PreSettings) (ops : List PreOp) : Ref := ops.foldl (Ref.step c) ⟨none, []⟩

/-- The preprocessor after a history. -/
noncomputable def preRun (s : MsrSorts) (c : PreSettings) (ops : List PreOp) : Pre :=
  ops.foldl (fun p op => match op with
    | .update m => update p m
    | .extract => (extract s p).2) (Pre.init c.averageSec c.shiftSec c.useWifi c.useBle)

/-- The measurements of one transmitter. -/
def ofTx (id : String) (w : List Msr) : List Msr := w.filter (fun m => decide (m.id = id))

/-- `all` has exactly one entry for each transmitter of the window: the mean RSSI and the mean distance, the rest from
one of its measurements. -/
structure Averages (w all : List Msr) : Prop where
  distinct : (all.map Msr.id).Nodup
  ids : ∀ id, id ∈ all.map Msr.id ↔ ∃ m ∈ w, m.id = id
  entry : ∀ e ∈ all, e.rssi = mean ((ofTx e.id w).map Msr.rssi) ∧ e.distance = mean ((ofTx e.id w).map Msr.distance) ∧
    ∃ m ∈ w, m.id = e.id ∧ e = { m with rssi := e.rssi, distance := e.distance }

/-- `out` is the five strongest averages, strongest first. -/
def Report (w out : List Msr) : Prop :=
  ∃ dropped, Averages w (out ++ dropped) ∧ out.length = min 5 (out ++ dropped).length ∧
    out.Pairwise (fun a b => b.rssi ≤ a.rssi) ∧ ∀ k ∈ out, ∀ d ∈ dropped, d.rssi ≤ k.rssi

/-! ## Lemmas -/

theorem averageMsrs_eq (x : Msr) (r : List Msr) (hr : r ≠ []) :
    averageMsrs x r = { x with rssi := mean (r.map Msr.rssi), distance := mean (r.map Msr.distance) } := by
  have hl : (0 : ℝ) < r.length := by exact_mod_cast List.length_pos_iff.mpr hr
  simp only [averageMsrs, divide_pos hl, mean, foldl_add_eq_sum Msr.rssi, foldl_add_eq_sum Msr.distance, zero_add, List.length_map]

theorem averageMsrLoop_spec (l : List Msr) (h : l.Pairwise (fun a b => ¬ b.id < a.id)) :
    ((averageMsrLoop l).map Msr.id).Pairwise (· < ·) ∧
    (∀ id, id ∈ (averageMsrLoop l).map Msr.id ↔ id ∈ l.map Msr.id) ∧
    ∀ e ∈ averageMsrLoop l,
      e.rssi = mean ((ofTx e.id l).map Msr.rssi) ∧
      e.distance = mean ((ofTx e.id l).map Msr.distance) ∧
      ∃ m ∈ ofTx e.id l, e = { m with rssi := e.rssi, distance := e.distance } := by
  induction l using averageMsrLoop.induct with
  | case1 => simp [averageMsrLoop]
  | case2 x xs ih =>
    obtain ⟨hx, hxs⟩ := List.pairwise_cons.mp h
    have hp : ∀ a b : Msr, ¬ b.id < a.id →
        (!decide (x.id < b.id)) = true → (!decide (x.id < a.id)) = true := by
      intro a b hab hb
      simp only [Bool.not_eq_true', decide_eq_false_iff_not, not_lt] at *
      exact hab.trans hb
    rw [dropWhile_eq_filter hp xs hxs] at ih
    set rest := xs.filter (fun a => !(!decide (x.id < a.id))) with hrest
    have hmemrest : ∀ m, m ∈ rest ↔ m ∈ xs ∧ x.id < m.id := by
      intro m; simp [hrest]
    have hrs : rest.Pairwise (fun a b => ¬ b.id < a.id) := List.Pairwise.filter _ hxs
    obtain ⟨ih1, ih2, ih3⟩ := ih hrs
    have htake : x :: xs.takeWhile (fun m => !decide (x.id < m.id)) = ofTx x.id (x :: xs) := by
      rw [takeWhile_eq_filter hp xs hxs]
      simp only [ofTx, List.filter_cons, decide_true, if_true]
      congr 1
      apply List.filter_congr
      intro m hm
      have := hx m hm
      simp only [not_lt] at this
      by_cases hlt : x.id < m.id
      · simp [hlt, hlt.ne']
      · have : m.id = x.id := le_antisymm (not_lt.mp hlt) this
        simp [this]
    have hof : ∀ id, x.id < id → ofTx id (x :: xs) = ofTx id rest := by
      intro id hid
      simp only [ofTx, hrest, List.filter_cons, hid.ne, decide_false, List.filter_filter]
      rw [if_neg (by simp)]
      apply List.filter_congr
      intro m hm
      by_cases he : m.id = id
      · simp [he, hid]
      · simp [he]
    rw [averageMsrLoop, htake, dropWhile_eq_filter hp xs hxs, averageMsrs_eq _ _ (by rw [← htake]; simp)]
    refine ⟨?_, ?_, ?_⟩
    · rw [List.map_cons, List.pairwise_cons]
      refine ⟨?_, ih1⟩
      intro id hid
      rw [ih2] at hid
      obtain ⟨m, hm, rfl⟩ := List.mem_map.mp hid
      exact ((hmemrest m).mp hm).2
    · intro id
      rw [List.map_cons, List.mem_cons, ih2, List.map_cons, List.mem_cons]
      constructor
      · rintro (h1 | h1)
        · exact .inl h1
        · obtain ⟨m, hm, rfl⟩ := List.mem_map.mp h1
          exact .inr (List.mem_map.mpr ⟨m, ((hmemrest m).mp hm).1, rfl⟩)
      · rintro (h1 | h1)
        · exact .inl h1
        · obtain ⟨m, hm, rfl⟩ := List.mem_map.mp h1
          rcases (not_lt.mp (hx m hm)).lt_or_eq with hlt | heq
          · exact .inr (List.mem_map.mpr ⟨m, (hmemrest m).mpr ⟨hm, hlt⟩, rfl⟩)
          · exact .inl heq.symm
    · intro e he
      rcases List.mem_cons.mp he with rfl | he
      · refine ⟨rfl, rfl, x, ?_, rfl⟩
        simp [ofTx]
      · have hid : e.id ∈ rest.map Msr.id := (ih2 e.id).mp (List.mem_map_of_mem he)
        obtain ⟨m, hm, hme⟩ := List.mem_map.mp hid
        have hlt : x.id < e.id := by rw [← hme]; exact ((hmemrest m).mp hm).2
        rw [hof e.id hlt]
        exact ih3 e he

theorem Averages.of_perm {w w' all all' : List Msr} (h : Averages w all) (hw : w.Perm w') (ha : all.Perm all') :
    Averages w' all' := by
  constructor
  · exact (ha.map _).nodup_iff.mp h.distinct
  · intro id
    rw [← (ha.map Msr.id).mem_iff, h.ids]
    constructor
    · rintro ⟨m, hm, he⟩; exact ⟨m, hw.mem_iff.mp hm, he⟩
    · rintro ⟨m, hm, he⟩; exact ⟨m, hw.mem_iff.mpr hm, he⟩
  · intro e he
    obtain ⟨h1, h2, m, hm, h3⟩ := h.entry e (ha.mem_iff.mpr he)
    have hf : (ofTx e.id w).Perm (ofTx e.id w') := hw.filter _
    exact ⟨h1.trans (mean_perm (hf.map _)), h2.trans (mean_perm (hf.map _)), m, hw.mem_iff.mp hm, h3⟩

theorem averages_loop (s : MsrSorts) (hs : s.Lawful) (w : List Msr) : Averages w (averageMsrLoop (s.byId w)) := by
  have hp := hs.byId.perm w
  obtain ⟨h1, h2, h3⟩ := averageMsrLoop_spec _ (hs.byId.sorted w)
  refine Averages.of_perm (w := s.byId w) ?_ hp (List.Perm.refl _)
  refine ⟨h1.imp (fun h => h.ne), ?_, ?_⟩
  · intro id; rw [h2, List.mem_map]
  · intro e he
    obtain ⟨a, b, m, hm, c⟩ := h3 e he
    have hm' := List.mem_filter.mp hm
    exact ⟨a, b, m, hm'.1, by simpa using hm'.2, c⟩

/-- The five strongest of a list. -/
theorem closest_spec (s : MsrSorts) (hs : s.Lawful) (l : List Msr) :
    let sorted := (s.byRssi l.reverse).reverse
    let out := if sorted.length > 5 then sorted.take 5 else sorted
    ∃ dropped, (out ++ dropped).Perm l ∧ out.length = min 5 (out ++ dropped).length ∧
      out.Pairwise (fun a b => b.rssi ≤ a.rssi) ∧ ∀ k ∈ out, ∀ d ∈ dropped, d.rssi ≤ k.rssi := by
  intro sorted out
  have hperm : sorted.Perm l := (List.reverse_perm _).trans ((hs.byRssi.perm _).trans (List.reverse_perm _))
  have hord : sorted.Pairwise (fun a b => b.rssi ≤ a.rssi) := by
    rw [List.pairwise_reverse]
    exact (hs.byRssi.sorted _).imp (fun h => not_lt.mp h)
  have hout : out = sorted.take 5 := by
    simp only [out]
    split_ifs with h
    · rfl
    · rw [List.take_of_length_le (by omega)]
  rw [hout]
  refine ⟨sorted.drop 5, by rw [List.take_append_drop]; exact hperm, by rw [List.take_append_drop, List.length_take], 
    hord.sublist (List.take_sublist _ _), ?_⟩
  have hsplit := List.take_append_drop 5 sorted
  rw [← hsplit, List.pairwise_append] at hord
  exact fun k hk d hd => hord.2.2 k hk d hd

/-- The model represents the reference. -/
structure Represents (c : PreSettings) (p : Pre) (r : Ref) : Prop where
  wifi : p.useWifi = c.useWifi
  ble : p.useBle = c.useBle
  shift : p.buffer.shiftMs = c.shift
  keep : p.buffer.keepMs = c.average - c.shift
  none : r.times = none → p.buffer.currentTs = -1 ∧ p.buffer.lastExtractionTs = -1 ∧ p.buffer.measurements = [] ∧ r.window = []
  some : ∀ clock mark, r.times = some (clock, mark) → 0 ≤ mark ∧ mark ≤ clock ∧ p.buffer.currentTs = clock ∧
    p.buffer.lastExtractionTs = mark ∧ p.buffer.measurements.Perm r.window

theorem counts_iff (c : PreSettings) (p : Pre) (h1 : p.useWifi = c.useWifi) (h2 : p.useBle = c.useBle) (m : Msr) :
    (isTypeSupported p m.type && isMsrRssiValid m.rssi) = true ↔ Counts c m := by
  unfold isTypeSupported isMsrRssiValid Counts
  rw [h1, h2]
  cases m.type <;> simp

theorem represents_init (c : PreSettings) : Represents c (Pre.init c.averageSec c.shiftSec c.useWifi c.useBle) ⟨none, []⟩ := by
  refine ⟨rfl, rfl, rfl, rfl, fun _ => ⟨rfl, rfl, rfl, rfl⟩, fun _ _ h => ?_⟩
  cases h

open Classical in
theorem represents_update (c : PreSettings) (p : Pre) (r : Ref) (h : Represents c p r) (m : Msr)
    (hm : Counts c m → 0 ≤ m.ts) : Represents c (update p m) (r.step c (.update m)) := by
  have hb : (update p m).useWifi = p.useWifi ∧ (update p m).useBle = p.useBle ∧
      (update p m).buffer = if Counts c m then addMeasurements p.buffer m.ts [m] else p.buffer := by
    unfold update
    by_cases hc : Counts c m
    · rw [if_pos ((counts_iff c p h.wifi h.ble m).mpr hc), if_pos hc]
      dsimp only
      split_ifs <;> exact ⟨rfl, rfl, rfl⟩
    · rw [if_neg (fun h' => hc ((counts_iff c p h.wifi h.ble m).mp h')), if_neg hc]
      dsimp only
      split_ifs <;> exact ⟨rfl, rfl, rfl⟩
  obtain ⟨b1, b2, b3⟩ := hb
  unfold Ref.step
  by_cases hc : Counts c m
  · rw [if_pos hc] at b3
    simp only [hc, if_true]
    have hm0 := hm hc
    cases ht : r.times with
    | none =>
      obtain ⟨n1, n2, n3, n4⟩ := h.none ht
      have hadd : addMeasurements p.buffer m.ts [m] = { p.buffer with currentTs := m.ts, lastExtractionTs := m.ts } := by
        simp [addMeasurements, addOne, n1]
      dsimp only
      refine ⟨b1.trans h.wifi, b2.trans h.ble, by rw [b3, hadd]; exact h.shift, by rw [b3, hadd]; exact h.keep, fun h' => (by cases h'), ?_⟩
      rintro clock mark h'
      simp only [Option.some.injEq, Prod.mk.injEq] at h'
      obtain ⟨rfl, rfl⟩ := h'
      refine ⟨hm0, le_refl _, by rw [b3, hadd], by rw [b3, hadd], ?_⟩
      rw [b3, hadd]
      dsimp only
      rw [n3]
    | some cm =>
      obtain ⟨clock, mark⟩ := cm
      obtain ⟨s1, s2, s3, s4, s5⟩ := h.some clock mark ht
      have hadd : addMeasurements p.buffer m.ts [m] = { p.buffer with
          currentTs := max clock m.ts
          measurements := if mark < m.ts then p.buffer.measurements ++ [m] else p.buffer.measurements } := by
        have hne : ¬ p.buffer.currentTs = -1 := by omega
        simp only [addMeasurements, if_neg hne, List.foldl_cons, List.foldl_nil, addOne, s4, gt_iff_lt]
        by_cases hlt : mark < m.ts
        · simp only [hlt, if_true, s3, max_comm]
        · simp only [hlt, if_false, s3, s4, max_comm]
      dsimp only
      refine ⟨b1.trans h.wifi, b2.trans h.ble, by rw [b3, hadd]; exact h.shift, by rw [b3, hadd]; exact h.keep, fun h' => (by cases h'), ?_⟩
      rintro clock' mark' h'
      simp only [Option.some.injEq, Prod.mk.injEq] at h'
      obtain ⟨rfl, rfl⟩ := h'
      refine ⟨s1, by omega, by rw [b3, hadd], by rw [b3, hadd]; exact s4, ?_⟩
      rw [b3, hadd]
      dsimp only
      split_ifs
      · exact s5.append_right _
      · exact s5
  · rw [if_neg hc] at b3
    simp only [hc, if_false]
    exact ⟨b1.trans h.wifi, b2.trans h.ble, by rw [b3]; exact h.shift, by rw [b3]; exact h.keep,
      fun h' => by rw [b3]; exact h.none h', fun a b h' => by rw [b3]; exact h.some a b h'⟩

theorem represents_extract (s : MsrSorts) (hs : s.Lawful) (c : PreSettings) (p : Pre) (r : Ref) (h : Represents c p r) :
    Represents c (extract s p).2 (r.step c .extract) ∧
    (Due c r → Report r.window (extract s p).1) ∧ (¬ Due c r → (extract s p).1 = []) := by
  have hrep : ∀ w all, Averages w all → Report w (
      if (s.byRssi all.reverse).reverse.length > 5 then (s.byRssi all.reverse).reverse.take 5
      else (s.byRssi all.reverse).reverse) := by
    intro w all ha
    obtain ⟨dropped, d1, d2, d3, d4⟩ := closest_spec s hs all
    exact ⟨dropped, ha.of_perm (List.Perm.refl _) d1.symm, d2, d3, d4⟩
  have hempty : (s.byRssi ([] : List Msr).reverse).reverse = [] := by
    have := (hs.byRssi.perm []).length_eq
    rw [List.reverse_nil, List.reverse_eq_nil_iff]
    exact List.eq_nil_of_length_eq_zero (by simpa using this)
  cases ht : r.times with
  | none =>
    obtain ⟨n1, n2, n3, n4⟩ := h.none ht
    have hnd : ¬ Due c r := by rintro ⟨a, b, h', -⟩; rw [ht] at h'; cases h'
    have hloop : averageMsrLoop (s.byId []) = [] := by
      have h0 : s.byId [] = [] := List.eq_nil_of_length_eq_zero (by simpa using (hs.byId.perm []).length_eq)
      rw [h0, averageMsrLoop]
    have hdrop : ∀ q, (s.byTs (s.byId [])).dropWhile q = [] := by
      intro q
      have h0 : s.byId [] = [] := List.eq_nil_of_length_eq_zero (by simpa using (hs.byId.perm []).length_eq)
      have h1 : s.byTs [] = [] := List.eq_nil_of_length_eq_zero (by simpa using (hs.byTs.perm []).length_eq)
      rw [h0, h1]; rfl
    have hx : extractMsrs s p.buffer = ([], p.buffer) := by
      have this : ({ p.buffer with lastExtractionTs := p.buffer.currentTs, measurements := [] } : Buf) = p.buffer := by
        rcases hb : p.buffer with ⟨ms, a, b, d, e⟩
        rw [hb] at n1 n2 n3
        simp only at n1 n2 n3
        rw [n1, n2, n3]
      unfold extractMsrs
      by_cases hg : p.buffer.currentTs - p.buffer.lastExtractionTs < p.buffer.shiftMs
      · rw [if_pos hg]
      · rw [if_neg hg]
        dsimp only
        rw [n3, hloop, hdrop, ite_self]
        exact Prod.ext rfl this
    have hex : extract s p = ([], p) := by
      unfold extract
      rw [hx]
      dsimp only
      rw [hempty]; rfl
    rw [hex]
    refine ⟨?_, fun hd => absurd hd hnd, fun _ => rfl⟩
    unfold Ref.step
    rw [ht]
    exact h
  | some cm =>
    obtain ⟨clock, mark⟩ := cm
    obtain ⟨s1, s2, s3, s4, s5⟩ := h.some clock mark ht
    by_cases hg : c.shift ≤ clock - mark
    · have hd : Due c r := ⟨clock, mark, ht, hg⟩
      set kept := if p.buffer.keepMs = 0 then []
        else (s.byTs (s.byId p.buffer.measurements)).dropWhile (fun rm => !decide (rm.ts ≥ p.buffer.currentTs - p.buffer.keepMs))
        with hkept
      have hx : extractMsrs s p.buffer = (averageMsrLoop (s.byId p.buffer.measurements),
          { p.buffer with lastExtractionTs := clock, measurements := kept }) := by
        unfold extractMsrs
        rw [if_neg (by rw [s3, s4, h.shift]; omega)]
        show (averageMsrLoop (s.byId p.buffer.measurements),
          ({ p.buffer with lastExtractionTs := p.buffer.currentTs, measurements := kept } : Buf)) = _
        rw [s3]
      have hkp : kept.Perm (if c.shift = c.average then []
          else r.window.filter (fun m => decide (clock - (c.average - c.shift) ≤ m.ts))) := by
        rw [hkept, h.keep, s3]
        by_cases he : c.shift = c.average
        · rw [if_pos he, if_pos (by omega)]
        · rw [if_neg he, if_neg (by omega)]
          have hp : ∀ a b : Msr, ¬ b.ts < a.ts →
              (!decide (b.ts ≥ clock - (c.average - c.shift))) = true → (!decide (a.ts ≥ clock - (c.average - c.shift))) = true := by
            intro a b hab hb
            simp only [Bool.not_eq_true', decide_eq_false_iff_not, not_lt] at *
            omega
          rw [dropWhile_eq_filter hp _ (hs.byTs.sorted _)]
          have := ((hs.byTs.perm (s.byId p.buffer.measurements)).trans (hs.byId.perm p.buffer.measurements)).trans s5
          simpa using this.filter (fun m => decide (clock - (c.average - c.shift) ≤ m.ts))
      refine ⟨?_, fun _ => ?_, fun hnd => absurd hd hnd⟩
      · unfold Ref.step extract
        rw [hx, ht]
        simp only [hg, if_true]
        refine ⟨h.wifi, h.ble, h.shift, h.keep, fun h' => (by cases h'), ?_⟩
        intro clock' mark' h'
        simp only [Option.some.injEq, Prod.mk.injEq] at h'
        obtain ⟨rfl, rfl⟩ := h'
        exact ⟨by omega, le_refl _, s3, rfl, hkp⟩
      · unfold extract
        rw [hx]
        exact hrep _ _ ((averages_loop s hs _).of_perm s5 (List.Perm.refl _))
    · have hnd : ¬ Due c r := by
        rintro ⟨a, b, h', hh⟩; rw [ht] at h'; cases h'; exact hg hh
      have hex : extract s p = ([], p) := by
        unfold extract extractMsrs
        rw [if_pos (by rw [s3, s4, h.shift]; omega)]
        dsimp only
        rw [hempty]; rfl
      rw [hex]
      refine ⟨?_, fun hd => absurd hd hnd, fun _ => rfl⟩
      unfold Ref.step
      rw [ht]
      simp only [hg, if_false]
      exact h

/-! ## C70 -/

/-- The counting measurements of a history have non-negative time stamps. -/
def TimesOk (c : PreSettings) (ops : List PreOp) : Prop := ∀ m, PreOp.update m ∈ ops → Counts c m → 0 ≤ m.ts

theorem represents_run (s : MsrSorts) (hs : s.Lawful) (c : PreSettings) (ops : List PreOp) (hts : TimesOk c ops) :
    Represents c (preRun s c ops) (refRun c ops) := by
  induction ops using List.reverseRecOn with
  | nil => exact represents_init c
  | append_singleton ops op ih =>
    have ih' := ih (fun m hm => hts m (List.mem_append_left _ hm))
    unfold preRun refRun at ih' ⊢
    rw [List.foldl_append, List.foldl_append]
    simp only [List.foldl_cons, List.foldl_nil]
    cases op with
    | update m => exact represents_update c _ _ ih' m (hts m (by simp))
    | extract => exact (represents_extract s hs c _ _ ih').1

/-- **C70.** After any history the answer to an extraction is empty unless a report is due, and then it is the report
of the reference window: the five strongest transmitter averages, strongest first. -/
theorem C70_report (s : MsrSorts) (hs : s.Lawful) (c : PreSettings) (ops : List PreOp) (hts : TimesOk c ops) :
    let out := (extract s (preRun s c ops)).1
    (Due c (refRun c ops) → Report (refRun c ops).window out) ∧ (¬ Due c (refRun c ops) → out = []) :=
  (represents_extract s hs c _ _ (represents_run s hs c ops hts)).2

/-- **C70.** The clock is the largest time stamp of all messages, whether they count or not (-1 before the first). -/
theorem C70_clock (s : MsrSorts) (c : PreSettings) (ops : List PreOp) :
    (∀ m, PreOp.update m ∈ ops → m.ts ≤ (preRun s c ops).currentTs) ∧ -1 ≤ (preRun s c ops).currentTs ∧
    ((preRun s c ops).currentTs = -1 ∨ ∃ m, PreOp.update m ∈ ops ∧ m.ts = (preRun s c ops).currentTs) := by
  induction ops using List.reverseRecOn with
  | nil => exact ⟨by simp, le_refl _, .inl rfl⟩
  | append_singleton ops op ih =>
    obtain ⟨i1, i2, i3⟩ := ih
    have e : preRun s c (ops ++ [op]) = (match op with
      | .update m => update (preRun s c ops) m
      | .extract => (extract s (preRun s c ops)).2) := by
      unfold preRun; rw [List.foldl_append]; rfl
    rw [e]
    cases op with
    | update m =>
      have hc : (update (preRun s c ops) m).currentTs = max (preRun s c ops).currentTs m.ts := by
        unfold update
        dsimp only
        split_ifs <;> dsimp only at * <;> omega
      dsimp only
      rw [hc]
      refine ⟨?_, by omega, ?_⟩
      · intro m' hm'
        rcases List.mem_append.mp hm' with h | h
        · have := i1 m' h; omega
        · simp only [List.mem_singleton, PreOp.update.injEq] at h; subst h; omega
      · rcases le_or_gt m.ts (preRun s c ops).currentTs with h | h
        · rw [max_eq_left h]
          rcases i3 with h' | ⟨m', hm', h'⟩
          · exact .inl h'
          · exact .inr ⟨m', List.mem_append_left _ hm', h'⟩
        · rw [max_eq_right h.le]
          exact .inr ⟨m, by simp, rfl⟩
    | extract =>
      have hc : (extract s (preRun s c ops)).2.currentTs = (preRun s c ops).currentTs := rfl
      dsimp only
      rw [hc]
      refine ⟨?_, i2, ?_⟩
      · intro m' hm'
        rcases List.mem_append.mp hm' with h | h
        · exact i1 m' h
        · simp at h
      · rcases i3 with h' | ⟨m', hm', h'⟩
        · exact .inl h'
        · exact .inr ⟨m', List.mem_append_left _ hm', h'⟩

/-- The counting measurements of a history, in order. -/
noncomputable def counted (c : PreSettings) : List PreOp → List Msr
  | [] => []
  | .update m :: ops => open Classical in if Counts c m then m :: counted c ops else counted c ops
  | .extract :: ops => counted c ops

theorem counted_append (c : PreSettings) (a b : List PreOp) : counted c (a ++ b) = counted c a ++ counted c b := by
  induction a with
  | nil => rfl
  | cons op a ih =>
    cases op with
    | extract => simp [counted, ih]
    | update m =>
      by_cases h : Counts c m <;> simp [counted, ih, h]

/-- What the reference window holds. -/
theorem ref_inv (c : PreSettings) (ops : List PreOp) :
    ((refRun c ops).times = none → counted c ops = [] ∧ (refRun c ops).window = []) ∧
    (∀ clock mark, (refRun c ops).times = some (clock, mark) → ∃ first, (counted c ops).head? = some first ∧
      first.ts ≤ mark ∧ mark ≤ clock ∧ (∀ m ∈ counted c ops, m.ts ≤ clock) ∧ (∃ m ∈ counted c ops, m.ts = clock) ∧
      (∀ m ∈ (refRun c ops).window, first.ts < m.ts)) ∧
    (refRun c ops).window.Subperm (counted c ops) := by
  induction ops using List.reverseRecOn with
  | nil => exact ⟨fun _ => ⟨rfl, rfl⟩, fun _ _ h => (by cases h), List.Subperm.refl _⟩
  | append_singleton ops op ih =>
    obtain ⟨i1, i2, i3⟩ := ih
    have e : refRun c (ops ++ [op]) = (refRun c ops).step c op := by
      unfold refRun; rw [List.foldl_append]; rfl
    rw [e, counted_append]
    set r := refRun c ops
    cases op with
    | update m =>
      by_cases hm : Counts c m
      · have hcm : counted c [PreOp.update m] = [m] := by simp [counted, hm]
        rw [hcm]
        unfold Ref.step
        simp only [hm, if_true]
        cases ht : r.times with
        | none =>
          obtain ⟨j1, j2⟩ := i1 ht
          rw [j1]
          refine ⟨fun h => (by cases h), ?_, List.nil_subperm⟩
          intro clock mark h
          simp only [Option.some.injEq, Prod.mk.injEq] at h
          obtain ⟨rfl, rfl⟩ := h
          exact ⟨m, rfl, le_refl _, le_refl _, by simp, ⟨m, by simp, rfl⟩, by simp⟩
        | some cm =>
          obtain ⟨clock, mark⟩ := cm
          obtain ⟨first, f1, f2, f3, f4, f5, f6⟩ := i2 clock mark ht
          refine ⟨fun h => (by cases h), ?_, ?_⟩
          · intro clock' mark' h
            simp only [Option.some.injEq, Prod.mk.injEq] at h
            obtain ⟨rfl, rfl⟩ := h
            refine ⟨first, ?_, f2, by omega, ?_, ?_, ?_⟩
            · cases hl : counted c ops with
              | nil => rw [hl] at f1; cases f1
              | cons a l => rw [hl] at f1; simpa using f1
            · intro x hx
              rcases List.mem_append.mp hx with hx | hx
              · have := f4 x hx; omega
              · rw [List.mem_singleton] at hx; subst hx; omega
            · obtain ⟨x, hx, hxe⟩ := f5
              rcases le_or_gt m.ts clock with h | h
              · exact ⟨x, List.mem_append_left _ hx, by rw [max_eq_left h]; exact hxe⟩
              · exact ⟨m, by simp, by rw [max_eq_right h.le]⟩
            · intro x hx
              dsimp only at hx
              split_ifs at hx with hlt
              · rcases List.mem_append.mp hx with hx | hx
                · exact f6 x hx
                · rw [List.mem_singleton] at hx; subst hx; omega
              · exact f6 x hx
          · dsimp only
            split_ifs
            · exact i3.append (List.Subperm.refl _)
            · exact i3.trans (List.sublist_append_left _ _).subperm
      · have hcm : counted c [PreOp.update m] = [] := by simp [counted, hm]
        rw [hcm, List.append_nil]
        have : r.step c (.update m) = r := by unfold Ref.step; simp only [hm, if_false]
        rw [this]
        exact ⟨i1, i2, i3⟩
    | extract =>
      have hcm : counted c [PreOp.extract] = [] := rfl
      rw [hcm, List.append_nil]
      cases ht : r.times with
      | none =>
        have : r.step c .extract = r := by unfold Ref.step; rw [ht]
        rw [this]
        exact ⟨i1, i2, i3⟩
      | some cm =>
        obtain ⟨clock, mark⟩ := cm
        obtain ⟨first, f1, f2, f3, f4, f5, f6⟩ := i2 clock mark ht
        by_cases hg : c.shift ≤ clock - mark
        · have : r.step c .extract = ⟨some (clock, clock), if c.shift = c.average then []
              else r.window.filter (fun m => decide (clock - (c.average - c.shift) ≤ m.ts))⟩ := by
            unfold Ref.step; rw [ht]; simp only [hg, if_true]
          rw [this]
          refine ⟨fun h => (by cases h), ?_, ?_⟩
          · intro clock' mark' h
            simp only [Option.some.injEq, Prod.mk.injEq] at h
            obtain ⟨rfl, rfl⟩ := h
            refine ⟨first, f1, by omega, le_refl _, f4, f5, ?_⟩
            intro x hx
            dsimp only at hx
            split_ifs at hx
            · simp at hx
            · exact f6 x (List.mem_filter.mp hx).1
          · dsimp only
            split_ifs
            · exact List.nil_subperm
            · exact List.filter_sublist.subperm.trans i3
        · have : r.step c .extract = r := by unfold Ref.step; rw [ht]; simp only [hg, if_false]
          rw [this]
          exact ⟨i1, i2, i3⟩

/-- **C70.** After any history, every entry of a report is of a transmitter heard in a counting measurement that is
newer than the first counting one, its RSSI lies strictly between -100 and 0, no two entries are of the same
transmitter, there are at most five, and the report comes only when the newest counting measurement is at least the
shift younger than the first one. -/
theorem C70_entries (s : MsrSorts) (hs : s.Lawful) (c : PreSettings) (ops : List PreOp)
    (hts : TimesOk c ops) :
    let out := (extract s (preRun s c ops)).1
    out.length ≤ 5 ∧ (out.map Msr.id).Nodup ∧
    (∀ e ∈ out, -100 < e.rssi ∧ e.rssi < 0 ∧ ∃ first m, (counted c ops).head? = some first ∧ m ∈ counted c ops ∧
      first.ts < m.ts ∧ m.id = e.id) ∧
    (out ≠ [] → ∃ first last, (counted c ops).head? = some first ∧ last ∈ counted c ops ∧ c.shift ≤ last.ts - first.ts) := by
  intro out
  obtain ⟨h1, h2⟩ := C70_report s hs c ops hts
  obtain ⟨r1, r2, r3⟩ := ref_inv c ops
  by_cases hd : Due c (refRun c ops)
  · obtain ⟨dropped, ha, hl, hord, -⟩ := h1 hd
    obtain ⟨clock, mark, ht, hg⟩ := hd
    obtain ⟨first, f1, f2, f3, f4, ⟨last, f5, f5'⟩, f6⟩ := r2 clock mark ht
    have hcount : ∀ m ∈ counted c ops, Counts c m := by
      clear * -
      induction ops with
      | nil => simp [counted]
      | cons op ops ih =>
        cases op with
        | extract => exact ih
        | update m =>
          intro x hx
          simp only [counted] at hx
          split_ifs at hx with hm
          · rcases List.mem_cons.mp hx with rfl | hx
            · exact hm
            · exact ih x hx
          · exact ih x hx
    refine ⟨by rw [show out.length = _ from hl]; exact min_le_left _ _, ?_, ?_, fun _ => ⟨first, last, f1, f5, by omega⟩⟩
    · have := ha.distinct
      rw [List.map_append] at this
      exact this.sublist (List.sublist_append_left _ _)
    · intro e he
      obtain ⟨g1, -, m, hm, hme, -⟩ := ha.entry e (List.mem_append_left _ he)
      have hne : (ofTx e.id (refRun c ops).window).map Msr.rssi ≠ [] := by
        have : m ∈ ofTx e.id (refRun c ops).window := List.mem_filter.mpr ⟨hm, by simpa using hme⟩
        intro h0
        rw [List.map_eq_nil_iff] at h0
        rw [h0] at this; simp at this
      obtain ⟨lo, hlo, hi, hhi, b1, b2⟩ := mean_bounds hne
      have hval : ∀ x ∈ (ofTx e.id (refRun c ops).window).map Msr.rssi, -100 < x ∧ x < 0 := by
        intro x hx
        obtain ⟨y, hy, rfl⟩ := List.mem_map.mp hx
        exact (hcount y (r3.subset (List.mem_filter.mp hy).1)).2
      refine ⟨by rw [g1]; linarith [(hval lo hlo).1], by rw [g1]; linarith [(hval hi hhi).2], first, m, f1, r3.subset hm, f6 m hm, hme⟩
  · have : out = [] := h2 hd
    rw [this]
    simp

/-- **C70 (finding).** A measurement that arrives late, not newer than the newest one at the last report, is dropped
even if it is within the averaging time. -/
theorem C70_late (c : PreSettings) (ops : List PreOp) (m : Msr) (clock mark : Int)
    (ht : (refRun c ops).times = some (clock, mark)) (hm : m.ts ≤ mark) :
    (refRun c (ops ++ [.update m])).window = (refRun c ops).window := by
  have e : refRun c (ops ++ [.update m]) = (refRun c ops).step c (.update m) := by
    unfold refRun; rw [List.foldl_append]; rfl
  rw [e]
  unfold Ref.step
  by_cases h : Counts c m
  · simp only [h, if_true, ht]
    rw [if_neg (by omega)]
  · simp only [h, if_false]

/-- **C70.** The settings: the shift and the keep period add up to the averaging time; the shift is never larger. -/
theorem C70_settings (c : PreSettings) : c.shift ≤ c.average ∧
    ((Pre.init c.averageSec c.shiftSec c.useWifi c.useBle).buffer.keepMs +
      (Pre.init c.averageSec c.shiftSec c.useWifi c.useBle).buffer.shiftMs = c.average) ∧
    (0 ≤ c.averageSec → 0 ≤ c.shiftSec → 0 ≤ c.shift) := by
  have h0 : ∀ x : ℝ, 0 ≤ x → 0 ≤ truncToInt (1000 * x) := by
    intro x hx
    have : (0 : ℝ) ≤ 1000 * x := by linarith
    simp only [truncToInt, this, if_true]
    exact Int.floor_nonneg.mpr this
  refine ⟨?_, ?_, ?_⟩
  · unfold PreSettings.shift; split_ifs <;> omega
  · unfold Pre.init Buf.init PreSettings.average
    dsimp only
    omega
  · intro ha hb
    have h1 := h0 _ ha
    have h2 := h0 _ hb
    unfold PreSettings.shift PreSettings.average
    split_ifs <;> omega

/-! ## A concrete case -/

/-- Three counting measurements, the second of them a second after the first, and a report that is due. -/
theorem exOps_due : ∃ ops : List PreOp, TimesOk ⟨3, 2, true, true⟩ ops ∧ Due ⟨3, 2, true, true⟩ (refRun ⟨3, 2, true, true⟩ ops) ∧
    (refRun ⟨3, 2, true, true⟩ ops).window.length = 2 ∧ (0 : Int) ≤ (⟨3, 2, true, true⟩ : PreSettings).shift := by
  have hav : (⟨3, 2, true, true⟩ : PreSettings).average = 3000 := by
    have : (1000 * 3 : ℝ) = ((3000 : ℤ) : ℝ) := by norm_num
    simp only [PreSettings.average, truncToInt]
    rw [if_pos (by norm_num), this, Int.floor_intCast]
  have hsh : (⟨3, 2, true, true⟩ : PreSettings).shift = 2000 := by
    have h2 : truncToInt (1000 * 2) = 2000 := by
      have : (1000 * 2 : ℝ) = ((2000 : ℤ) : ℝ) := by norm_num
      simp only [truncToInt]
      rw [if_pos (by norm_num), this, Int.floor_intCast]
    unfold PreSettings.shift
    rw [hav]
    simp only [h2]
    norm_num
  have hcnt : ∀ ts, Counts ⟨3, 2, true, true⟩ ⟨.BEACON, ts, "a", -60, 0, 0, 0, 0⟩ := fun ts => ⟨rfl, by norm_num, by norm_num⟩
  refine ⟨[.update ⟨.BEACON, 1000, "a", -60, 0, 0, 0, 0⟩, .update ⟨.BEACON, 2000, "a", -60, 0, 0, 0, 0⟩,
    .update ⟨.BEACON, 3000, "a", -60, 0, 0, 0, 0⟩], ?_, ?_, ?_, by rw [hsh]; norm_num⟩
  · intro m hm _
    simp only [List.mem_cons, PreOp.update.injEq, List.not_mem_nil, or_false] at hm
    rcases hm with rfl | rfl | rfl <;> norm_num
  · refine ⟨3000, 1000, ?_, by rw [hsh]; norm_num⟩
    simp [refRun, Ref.step, hcnt]
  · simp [refRun, Ref.step, hcnt]

/-- Lawful sorts exist. -/
example : ∃ s : MsrSorts, s.Lawful := by
  classical
  exact ⟨⟨_, _, _⟩, sortsBy_insertionSort Msr.id, sortsBy_insertionSort Msr.ts, sortsBy_insertionSort Msr.rssi⟩

end Verif.Standalone
