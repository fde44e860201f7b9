import Verif.Bias.Client
import Verif.Nav.KnnExample
import Verif.LevelEst.TransmittersProps

/-!
# C129: a receiver that reads every signal by the same amount too strong or too weak
-/

namespace Verif.Bias

open Verif Verif.Levels Verif.Nav
open Verif.Knn (Result shift)

variable {ls : List Level} {c : Cfg} {d : ℝ}

/-- **C129.** A client that locates by differences between signals gives exactly the same answers, and the same debugging
information, when its receiver reads every signal `d` dB stronger or weaker, as long as this makes no signal cross a limit of the
receiver: for every map, every history of calls and messages of all kinds, whatever the other settings. -/
theorem C129_same_answers (hc : Client ls c) (hs : OffsetBlind c.env.radioSorts) (hd : ByDifferences ls c.cs) (g : Garbage)
    (batches : List (List Measurement)) (hm : ∀ b ∈ batches, ∀ m ∈ b, SameHeard c.cs d m) :
    ∃ s s' outs, navigateAll c (init c g) batches = .ok (s, outs) ∧ navigateAll c (init c g) (allOff d batches) = .ok (s', outs) := by
  obtain ⟨s, outs, h, -⟩ := C79_total hc g batches
  have hr := all_off hc hs hd batches (init c g) hm
  rw [init_off, h] at hr
  cases h' : navigateAll c (init c g) (allOff d batches) with
  | ok r =>
    rw [h'] at hr
    exact ⟨s, offState d s, outs, h, by rw [show r = _ from hr]⟩
  | throws => rw [h'] at hr; exact hr.elim
  | undefined => rw [h'] at hr; exact hr.elim

/-! ## Non-vacuity -/

/-- Insertion sort does not notice the offset. -/
theorem insertionSorts_blind : OffsetBlind Radio.insertionSorts := by
  constructor
  · intro d l
    exact (List.map_insertionSort (fun a b : RadioMeasurement => a.data.id ≤ b.data.id)
      (fun a b : RadioMeasurement => a.data.id ≤ b.data.id) (offMsr d) l (fun a _ b _ => Iff.rfl)).symm
  · intro d l
    exact (List.map_insertionSort (fun a b : RadioMeasurement => a.ts ≤ b.ts) (fun a b : RadioMeasurement => a.ts ≤ b.ts)
      (offMsr d) l (fun a _ b _ => Iff.rfl)).symm
  · intro d l
    refine (List.map_insertionSort (fun a b : RadioData => a.rssi ≤ b.rssi) (fun a b : RadioData => a.rssi ≤ b.rssi)
      (shift d) l (fun a _ b _ => ?_)).symm
    simp [shift]

/-- Non-vacuity: the client and the signals of C113's example, which are located; a receiver that reads 12.5 dB too weak. -/
example (g : Garbage) : ∃ s s' outs, navigateAll printCfg (init printCfg g) [printSignals] = .ok (s, outs) ∧
    navigateAll printCfg (init printCfg g) [[⟨.radio (signalOf "t1" (-82.5)), 1000⟩, ⟨.radio (signalOf "t2" (-72.5)), 1500⟩,
      ⟨.radio (signalOf "t3" (-92.5)), 3000⟩]] = .ok (s', outs) := by
  have h := C129_same_answers (d := -12.5) printClient insertionSorts_blind ⟨rfl, rfl, .inr (by simp), rfl⟩ g [printSignals] (by
    intro b hb m hm r hr _
    rw [List.mem_singleton] at hb
    subst hb
    simp only [printSignals, List.mem_cons, List.not_mem_nil, or_false] at hm
    rcases hm with rfl | rfl | rfl <;>
    · simp only [MeasurementData.radio.injEq] at hr
      subst hr
      simp [signalOf, printCfg, printSettings]
      norm_num)
  have e : allOff (-12.5) [printSignals] = [[⟨.radio (signalOf "t1" (-82.5)), 1000⟩, ⟨.radio (signalOf "t2" (-72.5)), 1500⟩,
      ⟨.radio (signalOf "t3" (-92.5)), 3000⟩]] := by
    simp [allOff, printSignals, off, signalOf]
    norm_num
  rw [← e]
  exact h

/-! ## The conditions are needed -/

/-- A signal. -/
noncomputable def heardAt (id : String) (rssi : ℝ) : RadioData := ⟨.BEACON, id, rssi, 0, 0, 0⟩

theorem two_fold {α : Type} (f : ℝ × String → α → Option (ℝ × String)) (b : ℝ × String) (x y : α) :
    (List.foldlM f b [x, y]).map Prod.snd = (f b x).bind fun b => (f b y).map Prod.snd := by
  rw [List.foldlM_cons]
  cases f b x with
  | none => rfl
  | some b' => simp

/-- A floor with one fingerprint of the transmitter `t`. -/
noncomputable def onePrint (id : String) (mean : ℝ) : Level :=
  ⟨id, ⟨0, 0⟩, [], mkRadiomap [⟨"r" ++ id, ⟨1, 1⟩, [("t", ⟨.BEACON, mean, 0, 1⟩)]⟩], ⟨[], ⟨⟨0, 0⟩, ⟨9, 9⟩⟩, []⟩, ⟨[], []⟩⟩

/-- **C129, finding.** The floor by fingerprints (default: without best reference points) compares the signals themselves: a receiver
that reads 30 dB too weak takes the same signal for one of another floor. -/
theorem C129_floor_by_fingerprints :
    Knn.detectByRadiomap false (Knn.getLevelsRadiomaps (collect [onePrint "A" (-50), onePrint "B" (-80)]))
        (collect [onePrint "A" (-50), onePrint "B" (-80)]) [heardAt "t" (-50)] = some "A" ∧
      Knn.detectByRadiomap false (Knn.getLevelsRadiomaps (collect [onePrint "A" (-50), onePrint "B" (-80)]))
        (collect [onePrint "A" (-50), onePrint "B" (-80)]) [heardAt "t" (-50 + -30)] = some "B" := by
  have hA : Knn.levelRadiomap (onePrint "A" (-50)) = [⟨"t", "rA", ⟨.BEACON, -50, 0, 1⟩⟩] := rfl
  have hB : Knn.levelRadiomap (onePrint "B" (-80)) = [⟨"t", "rB", ⟨.BEACON, -80, 0, 1⟩⟩] := rfl
  have hm : Knn.getLevelsRadiomaps (collect [onePrint "A" (-50), onePrint "B" (-80)]) =
      [("A", [⟨"t", "rA", ⟨.BEACON, -50, 0, 1⟩⟩]), ("B", [⟨"t", "rB", ⟨.BEACON, -80, 0, 1⟩⟩])] := by
    unfold Knn.getLevelsRadiomaps
    rw [collect_levels]
    have h1 : (onePrint "A" (-50)).id = "A" := rfl
    have h2 : (onePrint "B" (-80)).id = "B" := rfl
    have hlt : ¬ ("B" : String) < "A" := by rw [String.lt_iff_toList_lt]; decide
    simp [hA, hB, h1, h2, StdMap.set, StdMap.find?, StdMap.insertSorted, -String.lt_iff_toList_lt, hlt]
  have hw : ∀ a rp x, Knn.calcWeight [heardAt "t" x] [⟨"t", rp, ⟨.BEACON, a, 0, 1⟩⟩] = 1 / (|(|x| - |a|)| + 1 / 10) := by
    intro a rp x
    have h0 : |(|x| - |a|)| + 1 / 10 ≠ 0 := by positivity
    simp only [Knn.calcWeight, Knn.calcWeightStep, heardAt, List.foldl_cons, List.foldl_nil, beq_self_eq_true, List.filter_cons_of_pos,
      List.filter_nil, List.length_singleton, zero_add]
    rw [divide_eq h0, divide_eq (by norm_num)]
    simp
  unfold Knn.detectByRadiomap
  rw [hm, collect_levels]
  have s1 : ∀ x b, Knn.detectStep false [("A", [⟨"t", "rA", ⟨.BEACON, -50, 0, 1⟩⟩]), ("B", [⟨"t", "rB", ⟨.BEACON, -80, 0, 1⟩⟩])]
      [heardAt "t" x] b (onePrint "A" (-50)) =
        some (if 1 / (|(|x| - |(-50)|)| + 1 / 10) > b.1 then (1 / (|(|x| - |(-50)|)| + 1 / 10), "A") else b) := by
    intro x b
    have h1 : (onePrint "A" (-50)).id = "A" := rfl
    unfold Knn.detectStep
    rw [h1]
    simp only [StdMap.find?, if_true, Bool.false_eq_true, if_false, hw]
  have s2 : ∀ x b, Knn.detectStep false [("A", [⟨"t", "rA", ⟨.BEACON, -50, 0, 1⟩⟩]), ("B", [⟨"t", "rB", ⟨.BEACON, -80, 0, 1⟩⟩])]
      [heardAt "t" x] b (onePrint "B" (-80)) =
        some (if 1 / (|(|x| - |(-80)|)| + 1 / 10) > b.1 then (1 / (|(|x| - |(-80)|)| + 1 / 10), "B") else b) := by
    intro x b
    have h1 : (onePrint "B" (-80)).id = "B" := rfl
    have h2 : ("A" : String) ≠ "B" := by decide
    unfold Knn.detectStep
    rw [h1]
    simp only [StdMap.find?, if_neg h2, if_true, Bool.false_eq_true, if_false, hw]
  have key : ∀ msr maps, (List.foldlM (Knn.detectStep false maps msr) (0, "") [onePrint "A" (-50), onePrint "B" (-80)]).map Prod.snd =
      (Knn.detectStep false maps msr (0, "") (onePrint "A" (-50))).bind fun b =>
        (Knn.detectStep false maps msr b (onePrint "B" (-80))).map Prod.snd := by
    intro msr maps
    exact two_fold _ _ _ _
  rw [key, key]
  simp only [s1, s2, Option.bind_some, Option.map_some]
  norm_num

/-- The transmitter with this id. -/
noncomputable def tx (id : String) : Transmitter XYZPoint := ⟨id, ⟨0, 0, 0⟩, ⟨-59, 10, 0⟩, .BEACON⟩

/-- **C129, finding.** The floor by transmitters divides the mean strength by a number that grows with the share of transmitters
heard, so it also changes with the offset. -/
theorem C129_floor_by_transmitters :
    LevelEst.detectByTransmitters false (collect [bareLevel "A" [tx "a"], bareLevel "B" [tx "b", tx "c"]])
        [heardAt "a" (-50), heardAt "b" (-52), heardAt "c" (-52)] = some "A" ∧
      LevelEst.detectByTransmitters false (collect [bareLevel "A" [tx "a"], bareLevel "B" [tx "b", tx "c"]])
        [heardAt "a" (-50 + -30), heardAt "b" (-52 + -30), heardAt "c" (-52 + -30)] = some "B" := by
  have h1 : ∀ id, (bareLevel "A" [tx "a"]).containsTransmitter id = decide (id = "a") := by
    intro id
    simp [bareLevel, Level.addTransmitters, Level.containsTransmitter, tx, StdMap.insert, StdMap.insertSorted, StdMap.find?]
    by_cases h : "a" = id
    · simp [h]
    · simp [h, Ne.symm h]
  have hlt : ¬ ("c" : String) < "b" := by rw [String.lt_iff_toList_lt]; decide
  have h2 : ∀ id, (bareLevel "B" [tx "b", tx "c"]).containsTransmitter id = decide (id = "b" ∨ id = "c") := by
    intro id
    simp [bareLevel, Level.addTransmitters, Level.containsTransmitter, tx, StdMap.insert, StdMap.insertSorted, StdMap.find?, hlt]
    by_cases h : "b" = id
    · simp [h]
    · by_cases h' : "c" = id
      · subst h'; simp
      · simp [h, h', Ne.symm h, Ne.symm h']
  have e1 : (bareLevel "A" [tx "a"]).id = "A" := rfl
  have e2 : (bareLevel "B" [tx "b", tx "c"]).id = "B" := rfl
  have key : ∀ x y, LevelEst.detectByTransmitters false (collect [bareLevel "A" [tx "a"], bareLevel "B" [tx "b", tx "c"]])
      [heardAt "a" x, heardAt "b" y, heardAt "c" y] =
        (LevelEst.detectStep false [heardAt "a" x, heardAt "b" y, heardAt "c" y] (-1000, "") (bareLevel "A" [tx "a"])).bind fun b =>
        (LevelEst.detectStep false [heardAt "a" x, heardAt "b" y, heardAt "c" y] b (bareLevel "B" [tx "b", tx "c"])).map Prod.snd := by
    intro x y
    unfold LevelEst.detectByTransmitters
    rw [collect_levels]
    exact two_fold _ _ _ _
  have s1 : ∀ x y b, LevelEst.detectStep false [heardAt "a" x, heardAt "b" y, heardAt "c" y] b (bareLevel "A" [tx "a"]) =
      some (if x / (1 + 1 / 30) > b.1 then (x / (1 + 1 / 30), "A") else b) := by
    intro x y b
    have hl : getLevelRadioMeasurements RadioData.id (bareLevel "A" [tx "a"]) [heardAt "a" x, heardAt "b" y, heardAt "c" y] =
        [heardAt "a" x] := by
      simp [getLevelRadioMeasurements, h1, heardAt]
    have hc : LevelEst.levelCost false [heardAt "a" x, heardAt "b" y, heardAt "c" y] [heardAt "a" x] (bareLevel "A" [tx "a"]) =
        some (x / (1 + 1 / 30)) := by
      unfold LevelEst.levelCost LevelEst.getAverageRssi
      simp only [Bool.false_eq_true, if_false, List.foldl_cons, List.foldl_nil, heardAt, List.length_cons, List.length_nil]
      norm_num [divide_eq]
    unfold LevelEst.detectStep
    rw [hl]
    simp only [List.isEmpty_cons, Bool.false_eq_true, if_false, hc, e1]
  have s2 : ∀ x y b, LevelEst.detectStep false [heardAt "a" x, heardAt "b" y, heardAt "c" y] b (bareLevel "B" [tx "b", tx "c"]) =
      some (if y / (1 + 2 / 30) > b.1 then (y / (1 + 2 / 30), "B") else b) := by
    intro x y b
    have hl : getLevelRadioMeasurements RadioData.id (bareLevel "B" [tx "b", tx "c"]) [heardAt "a" x, heardAt "b" y, heardAt "c" y] =
        [heardAt "b" y, heardAt "c" y] := by
      simp [getLevelRadioMeasurements, h2, heardAt]
    have hc : LevelEst.levelCost false [heardAt "a" x, heardAt "b" y, heardAt "c" y] [heardAt "b" y, heardAt "c" y]
        (bareLevel "B" [tx "b", tx "c"]) = some (y / (1 + 2 / 30)) := by
      unfold LevelEst.levelCost LevelEst.getAverageRssi
      simp only [Bool.false_eq_true, if_false, List.foldl_cons, List.foldl_nil, heardAt, List.length_cons, List.length_nil]
      norm_num [divide_eq]
    unfold LevelEst.detectStep
    rw [hl]
    simp only [List.isEmpty_cons, Bool.false_eq_true, if_false, hc, e2]
  rw [key, key]
  simp only [s1, s2, Option.bind_some, Option.map_some]
  norm_num

end Verif.Bias
