import Verif.Unread.Client
import Verif.Nav.KnnExample
import Verif.Nav.ZoneProps
import Verif.Nav.Safety

/-!
# C131: what of a message matters
-/

namespace Verif.Unread

open Verif Verif.Levels Verif.Nav
open Verif.Knn (Result)

variable {ls : List Level} {c : Cfg}

/-- **C131.** A client that reports no altitudes gives the same answers to two histories that agree, message by message, in what
matters (`SameRead`). -/
theorem C131_same_answers (hc : Client ls c) (hs : ComparesOnly c.env.radioSorts) (ha : c.cs.useAltitude = false) (g : Garbage)
    {calls calls' : List (List Measurement)} (h : AllSameRead c.cs calls calls') :
    ∃ s s' outs, navigateAll c (init c g) calls = .ok (s, outs) ∧ navigateAll c (init c g) calls' = .ok (s', outs) := by
  obtain ⟨s, outs, h1, -⟩ := C79_total hc g calls
  obtain ⟨s', outs', h2, -⟩ := C79_total hc g calls'
  have r1 := all_bare hc hs ha calls (init c g)
  have r2 := all_bare hc hs ha calls' (init c g)
  rw [calls_same h, h2] at r2
  rw [h1] at r1
  refine ⟨s, s', outs, h1, ?_⟩
  cases h3 : navigateAll c (bareState c.cs (init c g)) (calls.map (List.map (bareMsg c.cs))) with
  | ok r =>
    rw [h3] at r1 r2
    have e : (bareState c.cs s', outs') = (bareState c.cs s, outs) := Eq.trans (Eq.symm r2) r1
    rw [h2, (Prod.mk.inj e).2]
  | throws => rw [h3] at r1; exact r1.elim
  | undefined => rw [h3] at r1; exact r1.elim

/-- A message whose distance and deviation are what the caller likes. -/
def ranged (f : RadioData → ℝ × ℝ) (m : Measurement) : Measurement :=
  match m.data with
  | .radio r => ⟨.radio { r with distance := (f r).1, stddev := (f r).2 }, m.ts⟩
  | _ => m

theorem read_refl (cs : CommonSettings) (m : Measurement) : SameRead cs m m := by
  obtain ⟨data, ts⟩ := m
  refine ⟨rfl, ?_⟩
  cases data with
  | radio r => exact ⟨rfl, rfl, rfl, fun _ => rfl⟩
  | sensor d =>
    refine ⟨rfl, ?_⟩
    obtain ⟨t, v⟩ := d
    cases t <;> first | rfl | exact fun _ => rfl
  | nmea n => exact (rfl : satellites n = satellites n)

/-- **C131, finding.** The distances measured by Wi-Fi ranging do not influence the place, the floor, the radius or the status: they may
be replaced by anything, also if the client uses nothing but Wi-Fi ranging (`measurementType`). -/
theorem C131_ranging (hc : Client ls c) (hs : ComparesOnly c.env.radioSorts) (ha : c.cs.useAltitude = false) (g : Garbage)
    (f : RadioData → ℝ × ℝ) (calls : List (List Measurement)) :
    ∃ s s' outs, navigateAll c (init c g) calls = .ok (s, outs) ∧ navigateAll c (init c g) (calls.map (List.map (ranged f))) = .ok (s', outs) := by
  refine C131_same_answers hc hs ha g ?_
  unfold AllSameRead
  rw [List.forall₂_map_right_iff]
  refine List.forall₂_same.mpr fun ms _ => ?_
  rw [List.forall₂_map_right_iff]
  refine List.forall₂_same.mpr fun m _ => ?_
  obtain ⟨data, ts⟩ := m
  cases data with
  | radio r => exact ⟨rfl, rfl, rfl, rfl, fun _ => rfl⟩
  | sensor d => exact read_refl _ _
  | nmea n => exact read_refl _ _

/-! ## Non-vacuity -/

/-- Insertion sort compares only. -/
theorem insertionSorts_compare : ComparesOnly Radio.insertionSorts := by
  constructor
  · intro f hf l
    refine (List.map_insertionSort (fun a b : RadioMeasurement => a.data.id ≤ b.data.id)
      (fun a b : RadioMeasurement => a.data.id ≤ b.data.id) _ l (fun a _ b _ => ?_)).symm
    simp only [hf]
  · intro f l
    exact (List.map_insertionSort (fun a b : RadioMeasurement => a.ts ≤ b.ts) (fun a b : RadioMeasurement => a.ts ≤ b.ts)
      (fun m => ⟨f m.data, m.ts⟩) l (fun a _ b _ => Iff.rfl)).symm
  · intro f hf l
    refine (List.map_insertionSort (fun a b : RadioData => a.rssi ≤ b.rssi) (fun a b : RadioData => a.rssi ≤ b.rssi)
      f l (fun a _ b _ => ?_)).symm
    simp only [hf]

/-- Non-vacuity: the client and the signals of C113's example, which are located; with distances and a satellite message in two forms. -/
example (g : Garbage) : ∃ s s' outs,
    navigateAll printCfg (init printCfg g) [printSignals ++ [⟨.nmea ⟨2, 9⟩, 3100⟩, ⟨.sensor ⟨.BAROMETER, ⟨1000, 1, 2⟩⟩, 3200⟩]] = .ok (s, outs) ∧
    navigateAll printCfg (init printCfg g) [[⟨.radio { signalOf "t1" (-70) with distance := 5 }, 1000⟩,
      ⟨.radio { signalOf "t2" (-60) with stddev := 3 }, 1500⟩, ⟨.radio { signalOf "t3" (-80) with distance := -1 }, 3000⟩,
      ⟨.nmea ⟨3, 12⟩, 3100⟩, ⟨.sensor ⟨.BAROMETER, ⟨900, 7, 7⟩⟩, 3200⟩]] = .ok (s', outs) := by
  refine C131_same_answers printClient insertionSorts_compare rfl g ?_
  unfold AllSameRead printSignals
  simp [SameRead, signalOf, satellites, printCfg, printSettings]

/-- Non-vacuity: the beacon of C94's example, which is located; the power does not matter either. -/
example (g : Garbage) : ∃ s s' outs,
    navigateAll plainCfg (init plainCfg g) [[exRadio 1000, exRadio 3000]] = .ok (s, outs) ∧
    navigateAll plainCfg (init plainCfg g) [[⟨.radio ⟨.BEACON, "tx", -70, -59, 2, 1⟩, 1000⟩, ⟨.radio ⟨.BEACON, "tx", -70, -12, 3, 0⟩, 3000⟩]] =
      .ok (s', outs) := by
  refine C131_same_answers plainClient insertionSorts_compare rfl g ?_
  unfold AllSameRead exRadio
  simp [SameRead, PowerRead, plainCfg, plainSettings]

end Verif.Unread
