import Verif.Nav.Spec
import Mathlib.Tactic.Push

/-!
# Property theorems for batches: C61, C62
-/

namespace Verif.Nav

open Verif.Levels
open Verif.Knn (Result)

theorem andThen_ok {α β : Type} {r : Result α} {f : α → Result β} {b : β} (h : andThen r f = .ok b) :
    ∃ a, r = .ok a ∧ f a = .ok b := by
  cases r with
  | ok a => exact ⟨a, rfl, h⟩
  | throws => cases h
  | undefined => cases h

theorem andThen_assoc {α β γ : Type} (r : Result α) (f : α → Result β) (g : β → Result γ) :
    andThen (andThen r f) g = andThen r (fun a => andThen (f a) g) := by
  cases r <;> rfl

/-- The loop without the test of the time stamps. -/
noncomputable def runs (c : Cfg) : State → List Measurement → Result (State × List (Output × DebugState))
  | s, [] => .ok (s, [])
  | s, m :: ms => andThen (step c s m) (fun r => andThen (runs c r.1 ms) (fun r' => .ok (r'.1, r.2 :: r'.2)))

/-- The measurements the loop accepts. -/
def accepted : Int → List Measurement → List Measurement
  | _, [] => []
  | prevTs, m :: ms => if prevTs > m.ts then accepted prevTs ms else m :: accepted m.ts ms

theorem loop_eq (c : Cfg) (s : State) (prevTs : Int) (ms : List Measurement) :
    loop c s prevTs ms = runs c s (accepted prevTs ms) := by
  induction ms generalizing s prevTs with
  | nil => rfl
  | cons m ms ih =>
    unfold loop accepted
    split_ifs with h
    · exact ih s prevTs
    · unfold runs
      congr 1
      funext r
      rw [ih]

theorem accepted_eq (prevTs : Int) (before ms : List Measurement)
    (h : ∀ m : Measurement, prevTs ≤ m.ts ↔ ∀ e ∈ before, e.ts ≤ m.ts) :
    accepted prevTs ms =
      ((ms.zipIdx before.length).filter (fun p : Measurement × ℕ => decide (∀ e ∈ (before ++ ms).take p.2, e.ts ≤ p.1.ts))).map Prod.fst := by
  induction ms generalizing prevTs before with
  | nil => rfl
  | cons m ms ih =>
    have hb : before ++ m :: ms = (before ++ [m]) ++ ms := by simp
    rw [List.zipIdx_cons, List.filter_cons]
    have ht : ((before ++ m :: ms).take before.length) = before := by simp
    have hlen : (before ++ [m]).length = before.length + 1 := by simp
    unfold accepted
    by_cases hm : ∀ e ∈ before, e.ts ≤ m.ts
    · have h1 : ¬ prevTs > m.ts := not_lt.mpr ((h m).mpr hm)
      have hdec : decide (∀ e ∈ (before ++ m :: ms).take before.length, e.ts ≤ m.ts) = true := by
        rw [ht]; simpa using hm
      rw [if_neg h1, if_pos hdec, List.map_cons, ih m.ts (before ++ [m]), hb, hlen]
      intro x
      constructor
      · intro hx e he
        rcases List.mem_append.mp he with he | he
        · exact (hm e he).trans hx
        · rw [List.mem_singleton] at he; rw [he]; exact hx
      · intro hx
        exact hx m (by simp)
    · have h1 : prevTs > m.ts := by
        by_contra hc
        exact hm ((h m).mp (not_lt.mp hc))
      have hdec : ¬ decide (∀ e ∈ (before ++ m :: ms).take before.length, e.ts ≤ m.ts) = true := by
        rw [ht]; simpa using hm
      rw [if_pos h1, if_neg hdec, ih prevTs (before ++ [m]), hb, hlen]
      intro x
      constructor
      · intro hx e he
        rcases List.mem_append.mp he with he | he
        · exact (h x).mp hx e he
        · rw [List.mem_singleton] at he
          rw [he]
          omega
      · intro hx
        exact (h x).mpr (fun e he => hx e (List.mem_append_left _ he))

theorem records_eq (m : Measurement) (ms : List Measurement) : records (m :: ms) = accepted m.ts (m :: ms) := by
  have hacc : accepted m.ts (m :: ms) = m :: accepted m.ts ms := by
    conv_lhs => unfold accepted
    rw [if_neg (lt_irrefl _)]
  rw [hacc, accepted_eq m.ts [m] ms (by intro x; simp)]
  unfold records
  rw [List.zipIdx_cons, List.filter_cons]
  simp

theorem navigate_eq (c : Cfg) (s : State) (batch : List Measurement) : navigate c s batch = runs c s (records batch) := by
  cases batch with
  | nil => rfl
  | cons m ms =>
    change loop c s m.ts (m :: ms) = _
    rw [loop_eq, records_eq]

theorem records_ordered (ms : List Measurement) (h : Ordered ms) : records ms = ms := by
  have key : ∀ (l before : List Measurement), Ordered (before ++ l) →
      ((l.zipIdx before.length).filter (fun p : Measurement × ℕ => decide (∀ e ∈ (before ++ l).take p.2, e.ts ≤ p.1.ts))).map Prod.fst = l := by
    intro l
    induction l with
    | nil => intro before _; rfl
    | cons m l ih =>
      intro before ho
      have hb : before ++ m :: l = (before ++ [m]) ++ l := by simp
      have hlen : (before ++ [m]).length = before.length + 1 := by simp
      have hm : ∀ e ∈ before, e.ts ≤ m.ts := by
        intro e he
        exact (List.pairwise_append.mp ho).2.2 e he m List.mem_cons_self
      have hdec : decide (∀ e ∈ (before ++ m :: l).take before.length, e.ts ≤ m.ts) = true := by
        rw [List.take_left]; simpa using hm
      rw [List.zipIdx_cons, List.filter_cons, if_pos hdec, List.map_cons]
      congr 1
      have := ih (before ++ [m]) (by rw [← hb]; exact ho)
      rw [hlen, ← hb] at this
      exact this
  simpa [records] using key ms [] (by simpa using h)

theorem ordered_records (ms : List Measurement) : Ordered (records ms) := by
  cases ms with
  | nil => simp [records, Ordered]
  | cons m ms =>
    rw [records_eq]
    have key : ∀ (l : List Measurement) (p : Int), Ordered (accepted p l) ∧ ∀ x ∈ accepted p l, p ≤ x.ts := by
      intro l
      induction l with
      | nil => intro p; simp [accepted, Ordered]
      | cons a l ih =>
        intro p
        unfold accepted
        split_ifs with h
        · exact ih p
        · obtain ⟨h1, h2⟩ := ih a.ts
          refine ⟨List.pairwise_cons.mpr ⟨h2, h1⟩, ?_⟩
          intro x hx
          rcases List.mem_cons.mp hx with rfl | hx
          · omega
          · have := h2 x hx; omega
    exact (key _ _).1

theorem runs_length (c : Cfg) (s s' : State) (ms : List Measurement) (outs : List (Output × DebugState))
    (h : runs c s ms = .ok (s', outs)) : outs.length = ms.length := by
  induction ms generalizing s outs with
  | nil => cases h; rfl
  | cons m ms ih =>
    obtain ⟨r, h1, h2⟩ := andThen_ok h
    obtain ⟨r', h3, h4⟩ := andThen_ok h2
    cases h4
    simp [ih r.1 r'.2 h3]

theorem runs_append (c : Cfg) (s : State) (a b : List Measurement) :
    runs c s (a ++ b) = andThen (runs c s a) (fun r => andThen (runs c r.1 b) (fun r' => .ok (r'.1, r.2 ++ r'.2))) := by
  induction a generalizing s with
  | nil =>
    change runs c s b = andThen (runs c s b) (fun r' => .ok (r'.1, [] ++ r'.2))
    cases runs c s b <;> rfl
  | cons m a ih =>
    change andThen (step c s m) _ = andThen (andThen (step c s m) _) _
    rw [andThen_assoc]
    congr 1
    funext r
    change andThen (runs c r.1 (a ++ b)) _ = _
    rw [ih, andThen_assoc, andThen_assoc]
    congr 1
    funext r'
    change andThen (andThen _ _) _ = andThen (runs c r'.1 b) _
    rw [andThen_assoc]
    rfl

/-- **C61.** For every client state and batch: the result of `navigate` is the same as for the batch
without the measurements that are older than an earlier one, and there is one output for each of the
others. -/
theorem C61_count (c : Cfg) (s : State) (batch : List Measurement) :
    navigate c s batch = navigate c s (records batch) ∧
      ∀ s' outs, navigate c s batch = .ok (s', outs) → outs.length = (records batch).length := by
  constructor
  · rw [navigate_eq, navigate_eq, records_ordered _ (ordered_records batch)]
  · intro s' outs h
    rw [navigate_eq] at h
    exact runs_length c s s' _ outs h

/-- **C61.** Outputs are in the order of the measurements: the outputs for a batch begin with those for
any initial part of it, and the last output for an accepted measurement is computed in the state reached
by the measurements before it. -/
theorem C61_order (c : Cfg) (s s' : State) (batch : List Measurement) (m : Measurement)
    (hm : ∀ e ∈ batch, e.ts ≤ m.ts) (outs : List (Output × DebugState))
    (h : navigate c s (batch ++ [m]) = .ok (s', outs)) :
    ∃ s1 outs1 out, navigate c s batch = .ok (s1, outs1) ∧ navigate c s1 [m] = .ok (s', [out]) ∧ outs = outs1 ++ [out] := by
  have hr : records (batch ++ [m]) = records batch ++ [m] := by
    unfold records
    rw [List.zipIdx_append, List.filter_append, List.map_append]
    congr 1
    · congr 1
      apply List.filter_congr
      intro p hp
      have hi := (List.mem_zipIdx hp).2.1
      rw [List.take_append_of_le_length (by omega)]
    · have hdec : decide (∀ e ∈ (batch ++ [m]).take batch.length, e.ts ≤ m.ts) = true := by
        rw [List.take_left]; simpa using hm
      simp only [List.zipIdx_cons, List.zipIdx_nil, Nat.zero_add, List.filter_cons, hdec, if_true, List.filter_nil,
        List.map_cons, List.map_nil]
  rw [navigate_eq, hr, runs_append] at h
  obtain ⟨r, h1, h2⟩ := andThen_ok h
  obtain ⟨r', h3, h4⟩ := andThen_ok h2
  have hl := runs_length c r.1 r'.1 [m] r'.2 h3
  obtain ⟨out, ho⟩ := List.length_eq_one_iff.mp hl
  refine ⟨r.1, r.2, out, by rw [navigate_eq]; exact h1, ?_, ?_⟩
  · cases h4
    rw [navigate_eq, records_ordered _ (by simp [Ordered]), h3, ← ho]
  · cases h4
    rw [ho]

/-- **C61.** A measurement that is older than an earlier one of the batch has no effect at all. -/
theorem C61_dropped (c : Cfg) (s : State) (before after : List Measurement) (m : Measurement)
    (hm : ∃ e ∈ before, m.ts < e.ts) : navigate c s (before ++ m :: after) = navigate c s (before ++ after) := by
  have key : ∀ (l : List Measurement) (p : Int), (p > m.ts ∨ ∃ e ∈ l, m.ts < e.ts) →
      accepted p (l ++ m :: after) = accepted p (l ++ after) := by
    intro l
    induction l with
    | nil =>
      intro p hp
      have : p > m.ts := by simpa using hp
      rw [List.nil_append, List.nil_append]
      conv_lhs => unfold accepted
      rw [if_pos this]
    | cons a l ih =>
      intro p hp
      rw [List.cons_append, List.cons_append]
      unfold accepted
      split_ifs with h
      · apply ih
        rcases hp with hp | ⟨e, he, hlt⟩
        · exact Or.inl hp
        · rcases List.mem_cons.mp he with rfl | he
          · left; omega
          · exact Or.inr ⟨e, he, hlt⟩
      · congr 1
        apply ih
        rcases hp with hp | ⟨e, he, hlt⟩
        · left; omega
        · rcases List.mem_cons.mp he with rfl | he
          · left; exact hlt
          · exact Or.inr ⟨e, he, hlt⟩
  cases before with
  | nil => simp at hm
  | cons b before =>
    rw [navigate_eq, navigate_eq, List.cons_append, List.cons_append, records_eq, records_eq]
    have := key (b :: before) b.ts (Or.inr hm)
    rw [List.cons_append, List.cons_append] at this
    rw [this]

/-- **C62.** For measurements in time order, any division into batches gives the same outputs, the same
final state and the same failures as one batch. -/
theorem C62_batching (c : Cfg) (s : State) (batches : List (List Measurement)) (h : Ordered batches.flatten) :
    navigateAll c s batches = navigate c s batches.flatten := by
  induction batches generalizing s with
  | nil => rfl
  | cons b bs ih =>
    rw [List.flatten_cons] at h
    obtain ⟨hb, hbs, -⟩ := List.pairwise_append.mp h
    unfold navigateAll
    rw [List.flatten_cons, navigate_eq c s (b ++ bs.flatten), records_ordered _ h, runs_append, navigate_eq,
      records_ordered _ hb]
    congr 1
    funext r
    rw [ih r.1 hbs, navigate_eq, records_ordered _ hbs]

end Verif.Nav
