import Verif.Pedo.ProgModel
import Verif.Pedo.BatchProps
import Verif.Pedo.HoldProps

/-!
# The step counting programs: C109
-/

namespace Verif.Pedo

open Verif

/-! ## Specification -/

/-- The samples of a log: the first line does not count, a line that cannot be read ends the log. -/
def logSamples (file : List (Option AccLine)) : List AccLine := ((file.drop 1).takeWhile Option.isSome).filterMap id

/-- The sample as a message of the library. -/
def AccLine.message (l : AccLine) : SensorMeasurement := ⟨⟨.ACCELEROMETER, ⟨l.x, l.y, l.z⟩⟩, l.ts⟩

/-- The steps the pedometer of the library reports when it gets these messages one at a time. -/
def LibrarySteps (ms : List SensorMeasurement) (steps : List Step) : Prop :=
  ∃ s outs, pedoRun (fusionOps ms) = some (s, outs) ∧ outs.flatten = steps

/-! ## Proofs -/

theorem parseLines_eq (file : List (Option AccLine)) :
    parseLines file = ((file.takeWhile Option.isSome).filterMap id).map AccLine.message := by
  induction file with
  | nil => rfl
  | cons o ls ih =>
    cases o with
    | none => simp [parseLines]
    | some l => simp [parseLines, ih, AccLine.message]

theorem parse_eq (file : List (Option AccLine)) : parseMeasurements file = (logSamples file).map AccLine.message := by
  unfold parseMeasurements logSamples
  rw [parseLines_eq, List.drop_one]

theorem library_steps (ms : List SensorMeasurement) : ∃ steps, LibrarySteps ms steps := by
  obtain ⟨s, outs, h, -⟩ := run_inv (fusionOps ms)
  exact ⟨outs.flatten, s, outs, h, rfl⟩

theorem library_unique {ms : List SensorMeasurement} {a b : List Step} (h1 : LibrarySteps ms a) (h2 : LibrarySteps ms b) : a = b := by
  obtain ⟨s, o, e, rfl⟩ := h1
  obtain ⟨s', o', e', rfl⟩ := h2
  rw [e] at e'
  cases e'
  rfl

theorem single_update (s : PedoState) (m : SensorMeasurement) (hm : m.data.type = .ACCELEROMETER) : updateBatch s [m] = update s m := by
  unfold updateBatch update
  simp [hm, List.foldlM]

/-- The loops of the two programs, from any state a run of the library reaches. -/
theorem loop_run (ms : List SensorMeasurement) (hm : ∀ m ∈ ms, m.data.type = .ACCELEROMETER) (s t : PedoState)
    (outs outs' : List (List Step)) (h : (fusionOps ms).foldlM pedoRecord (s, outs) = some (t, outs')) (n : ℕ) (len : ℝ) :
    ∃ new, outs'.flatten = outs.flatten ++ new ∧ countLoop ms s n = some (n + new.length) ∧
      countLenLoop ms s n len = some (n + new.length, len + (new.map Step.len).sum) := by
  induction ms generalizing s outs n len with
  | nil => cases h; exact ⟨[], by simp, by simp [countLoop], by simp [countLenLoop]⟩
  | cons m ms ih =>
    have e1 : fusionOps (m :: ms) = .sample m :: .steps :: fusionOps ms := by simp [fusionOps]
    rw [e1] at h
    simp only [List.foldlM_cons] at h
    unfold countLoop countLenLoop
    rw [single_update s m (hm m (by simp))]
    simp only [pedoRecord, pedoStep] at h
    cases hu : update s m with
    | none => rw [hu] at h; simp at h
    | some p =>
      rw [hu] at h
      simp only [Option.map_some, Option.bind_eq_bind, Option.bind_some] at h
      dsimp only
      cases hc : calculateSteps p with
      | none => rw [hc] at h; simp at h
      | some r =>
        obtain ⟨p', steps⟩ := r
        rw [hc] at h
        simp only [Option.map_some, Option.bind_some] at h
        dsimp only
        obtain ⟨new, n1, n2, n3⟩ := ih (fun x hx => hm x (List.mem_cons_of_mem _ hx)) p' _ h (n + steps.length)
          (steps.foldl (fun sum s => sum + s.len) len)
        refine ⟨steps ++ new, by rw [n1]; simp, by rw [n2]; simp; omega, ?_⟩
        have hsum : ∀ (l : List Step) (x : ℝ), l.foldl (fun sum s => sum + s.len) x = x + (l.map Step.len).sum := by
          intro l
          induction l with
          | nil => intro x; simp
          | cons a l ih => intro x; rw [List.foldl_cons, ih, List.map_cons, List.sum_cons]; ring
        rw [n3, hsum, List.length_append, List.map_append, List.sum_append]
        congr 2
        · omega
        · ring

theorem message_type (ls : List AccLine) : ∀ m ∈ ls.map AccLine.message, m.data.type = .ACCELEROMETER := by
  intro m hm
  obtain ⟨l, -, rfl⟩ := List.mem_map.mp hm
  rfl

/-- **C109.** For any log the program prints the number of steps that the pedometer of the library reports for the samples of
the log, one message at a time; the log is that of C52: at most one step per sample and at most one in 301 ms. -/
theorem C109_count (file : List (Option AccLine)) (steps : List Step)
    (h : LibrarySteps ((logSamples file).map AccLine.message) steps) :
    pedometerMain file = some steps.length ∧ steps.length ≤ (logSamples file).length ∧
    ∀ t0 t1 : Int, t0 ≤ t1 → (∀ l ∈ logSamples file, t0 ≤ l.ts ∧ l.ts ≤ t1) → (steps.length : Int) ≤ (t1 - t0) / 301 + 1 := by
  obtain ⟨s, outs, hr, rfl⟩ := h
  obtain ⟨new, n1, n2, -⟩ := loop_run _ (message_type _) {} s [] outs hr 0 0
  rw [List.flatten_nil, List.nil_append] at n1
  refine ⟨?_, ?_, ?_⟩
  · unfold pedometerMain
    rw [parse_eq, n2, n1, Nat.zero_add]
  · obtain ⟨-, -, h3⟩ := C52_spacing _ s outs hr
    obtain ⟨h1, -, -⟩ := C52_spacing _ s outs hr
    have hsub : (outs.flatten.map Step.ts).toFinset.card ≤ ((logSamples file).map AccLine.ts).toFinset.card := by
      refine Finset.card_le_card ?_
      intro x hx
      rw [List.mem_toFinset, List.mem_map] at hx ⊢
      obtain ⟨st, hst, rfl⟩ := hx
      obtain ⟨m, hm, he⟩ := h3 st hst
      rw [samples_fusion] at hm
      obtain ⟨l, hl, rfl⟩ := List.mem_map.mp (List.mem_filter.mp hm).1
      exact ⟨l, hl, he⟩
    have hnd : (outs.flatten.map Step.ts).Nodup := by
      unfold List.Nodup
      rw [List.pairwise_map]
      exact h1.imp (fun h => by omega)
    rw [List.toFinset_card_of_nodup hnd, List.length_map] at hsub
    exact hsub.trans ((List.toFinset_card_le _).trans (by simp))
  · intro t0 t1 hle ht
    refine C52_count _ s outs hr t0 t1 ?_ hle
    intro m hm
    rw [samples_fusion] at hm
    obtain ⟨l, hl, rfl⟩ := List.mem_map.mp (List.mem_filter.mp hm).1
    exact ht l hl

/-- **C109.** The printed number exists for every log, whatever its order of time. -/
theorem C109_prints (file : List (Option AccLine)) : ∃ n, pedometerMain file = some n := by
  obtain ⟨steps, h⟩ := library_steps ((logSamples file).map AccLine.message)
  exact ⟨_, (C109_count file steps h).1⟩

theorem logSamples_prefix (file more : List (Option AccLine)) (hne : file ≠ []) :
    ∃ r, logSamples (file ++ more) = logSamples file ++ r := by
  obtain ⟨o, ls, rfl⟩ := List.exists_cons_of_ne_nil hne
  unfold logSamples
  rw [List.cons_append, List.drop_one, List.drop_one, List.tail_cons, List.tail_cons]
  clear hne
  induction ls with
  | nil => exact ⟨(more.takeWhile Option.isSome).filterMap id, by simp⟩
  | cons o ls ih =>
    cases o with
    | none => exact ⟨[], by simp⟩
    | some l =>
      obtain ⟨r, hr⟩ := ih
      exact ⟨r, by simp at hr ⊢; exact hr⟩

/-- **C109.** A longer log gives at least as many steps; the first line has no influence; a line that cannot be read ends
the log. -/
theorem C109_prefix (file : List (Option AccLine)) (hne : file ≠ []) :
    (∀ more n k, pedometerMain file = some n → pedometerMain (file ++ more) = some k → n ≤ k) ∧
    (∀ first, pedometerMain (first :: file.tail) = pedometerMain file) ∧
    (∀ rest, pedometerMain (file ++ none :: rest) = pedometerMain file) := by
  refine ⟨?_, ?_, ?_⟩
  · intro more n k hn hk
    obtain ⟨r, hr⟩ := logSamples_prefix file more hne
    obtain ⟨a, ha⟩ := library_steps ((logSamples file).map AccLine.message)
    obtain ⟨b, hb⟩ := library_steps ((logSamples (file ++ more)).map AccLine.message)
    rw [(C109_count file a ha).1] at hn
    rw [(C109_count _ b hb).1] at hk
    cases hn
    cases hk
    obtain ⟨s, outs, e, rfl⟩ := ha
    obtain ⟨t, outt, e', rfl⟩ := hb
    rw [hr, List.map_append] at e'
    have hf : ∀ x y : List SensorMeasurement, fusionOps (x ++ y) = fusionOps x ++ fusionOps y := by
      intro x y; simp [fusionOps]
    unfold pedoRun at e e'
    rw [hf, List.foldlM_append, e] at e'
    simp only [Option.bind_eq_bind, Option.bind_some] at e'
    obtain ⟨new, n1, -, -⟩ := loop_run (r.map AccLine.message) (message_type _) s t outs outt e' 0 0
    rw [n1]
    simp
  · intro first
    unfold pedometerMain parseMeasurements
    rfl
  · intro rest
    unfold pedometerMain parseMeasurements
    obtain ⟨o, ls, rfl⟩ := List.exists_cons_of_ne_nil hne
    rw [List.cons_append, List.tail_cons, List.tail_cons]
    have : parseLines (ls ++ none :: rest) = parseLines ls := by
      clear hne
      induction ls with
      | nil => rfl
      | cons o ls ih =>
        cases o with
        | none => rfl
        | some l => exact congrArg (AccLine.message l :: ·) ih
    rw [this]

/-- **C109.** The way the device is held does not matter: two logs with the same times whose samples have the same
lengths give the same number. -/
theorem C109_turned (file file' : List (Option AccLine))
    (h : List.Forall₂ (fun l l' : AccLine => l.ts = l'.ts ∧ l.x ^ 2 + l.y ^ 2 + l.z ^ 2 = l'.x ^ 2 + l'.y ^ 2 + l'.z ^ 2)
      (logSamples file) (logSamples file')) : pedometerMain file = pedometerMain file' := by
  have ho : ∀ l l' : List AccLine, List.Forall₂ (fun l l' : AccLine => l.ts = l'.ts ∧
      l.x ^ 2 + l.y ^ 2 + l.z ^ 2 = l'.x ^ 2 + l'.y ^ 2 + l'.z ^ 2) l l' →
      List.Forall₂ TurnedOp (fusionOps (l.map AccLine.message)) (fusionOps (l'.map AccLine.message)) := by
    intro l l' h
    induction h with
    | nil => exact .nil
    | @cons a b l l' hab _ ih =>
      have e : ∀ (a : AccLine) (l : List AccLine), fusionOps ((a :: l).map AccLine.message) =
          .sample a.message :: .steps :: fusionOps (l.map AccLine.message) := by
        intro a l; simp [fusionOps]
      rw [e, e]
      refine .cons (.sample ⟨hab.1, rfl, ?_⟩) (.cons .steps ih)
      unfold magnitude AccLine.message
      congr 1
      nlinarith [hab.2]
  obtain ⟨s, s', outs, e1, e2⟩ := C100_turned _ _ (ho _ _ h)
  rw [(C109_count file _ ⟨s, outs, e1, rfl⟩).1, (C109_count file' _ ⟨s', outs, e2, rfl⟩).1]

/-- **C109.** The pair of the test program: the number of steps and the mean of their lengths, which is not negative and
lies between the shortest and the longest step; without steps it is not a number. -/
theorem C109_mean (ls : List AccLine) (steps : List Step) (h : LibrarySteps (ls.map AccLine.message) steps) :
    (steps = [] → getStepsNumLenPair (ls.map AccLine.message) = some (0, none)) ∧
    (steps ≠ [] → ∃ len, getStepsNumLenPair (ls.map AccLine.message) = some (steps.length, some len) ∧
      len * steps.length = (steps.map Step.len).sum ∧ 0 ≤ len ∧ (∃ s ∈ steps, s.len ≤ len) ∧ ∃ s ∈ steps, len ≤ s.len) := by
  obtain ⟨s, outs, hr, rfl⟩ := h
  obtain ⟨new, n1, -, n3⟩ := loop_run _ (message_type _) {} s [] outs hr 0 0
  rw [List.flatten_nil, List.nil_append] at n1
  rw [← n1, Nat.zero_add, zero_add] at n3
  unfold getStepsNumLenPair
  rw [n3]
  dsimp only
  constructor
  · intro h0
    simp [h0]
  · intro hne
    have hpos : 0 < outs.flatten.length := List.length_pos_of_ne_nil hne
    have hposR : (0 : ℝ) < outs.flatten.length := by exact_mod_cast hpos
    rw [if_neg (by omega)]
    have hmul : (outs.flatten.map Step.len).sum / outs.flatten.length * outs.flatten.length = (outs.flatten.map Step.len).sum :=
      div_mul_cancel₀ _ hposR.ne'
    refine ⟨_, rfl, hmul, ?_, ?_, ?_⟩
    · refine div_nonneg (List.sum_nonneg ?_) hposR.le
      intro x hx
      obtain ⟨st, hst, rfl⟩ := List.mem_map.mp hx
      exact (C52_spacing _ s outs hr).2.1 st hst
    · by_contra hcon
      push Not at hcon
      have := List.sum_lt_sum_of_ne_nil (l := outs.flatten) hne (f := fun _ => (outs.flatten.map Step.len).sum / outs.flatten.length)
        (g := Step.len) (fun i hi => hcon i hi)
      rw [List.map_const', List.sum_replicate, nsmul_eq_mul] at this
      linarith
    · by_contra hcon
      push Not at hcon
      have := List.sum_lt_sum_of_ne_nil (l := outs.flatten) hne (f := Step.len)
        (g := fun _ => (outs.flatten.map Step.len).sum / outs.flatten.length) (fun i hi => hcon i hi)
      rw [List.map_const', List.sum_replicate, nsmul_eq_mul] at this
      linarith

/-- Non-vacuity: three samples at rest and a strong one make one step; the program prints 1. -/
example : ∃ n, pedometerMain [none, some ⟨1000, 0, 0, 0⟩, some ⟨1250, 0, 0, 0⟩, some ⟨1500, 0, 0, 0⟩, some ⟨1750, 0, 0, 10⟩, none] = some n ∧
    n = 1 := by
  obtain ⟨s, o, h, len, before, ho, hb⟩ := walk_one_step
  have hl : LibrarySteps ((logSamples [none, some ⟨1000, 0, 0, 0⟩, some ⟨1250, 0, 0, 0⟩, some ⟨1500, 0, 0, 0⟩,
      some ⟨1750, 0, 0, 10⟩, none]).map AccLine.message) [⟨1750, len⟩] := by
    refine ⟨s, o, ?_, by rw [ho]; simp [hb]⟩
    exact h
  exact ⟨_, (C109_count _ _ hl).1, rfl⟩

end Verif.Pedo
