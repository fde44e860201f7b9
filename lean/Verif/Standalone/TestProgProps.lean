import Verif.Standalone.TestProgModel
import Verif.Standalone.TrilatProps

/-!
# C126: what the test program of the standalone trilateration tells
-/

namespace Verif.Standalone

/-- **C126 (finding).** The test program prints "test passed!" for every calculation that returns no error, whatever the
coordinates; and for every calculation at all that happens to give one of the two expected numbers. -/
theorem C126_verdict (r : Code × Trilat) :
    testPassed r ↔ r.1 = .ok ∨ ∃ x y, r.2.xy = some (x, y) ∧ (x = 53692 / 1000 ∨ y = 29977 / 1000) := by
  unfold testPassed
  constructor
  · intro h
    by_contra hn
    rw [not_or] at hn
    refine h ⟨?_, ?_, hn.1⟩
    · intro x y e hx; exact hn.2 ⟨x, y, e, .inl hx⟩
    · intro x y e hy; exact hn.2 ⟨x, y, e, .inr hy⟩
  · rintro (h | ⟨x, y, e, h | h⟩) ⟨h1, h2, h3⟩
    · exact h3 h
    · exact h1 x y e h
    · exact h2 x y e h

/-- **C126 (finding).** For any map and any measurements in the place of those of the program: it prints "test passed!" iff no
distance is negative, at least three beacons were measured and one of them is on the map.  Neither the places of
the beacons nor the distances matter. -/
theorem C126_any_input (s : TrilatSorts) (hs : s.Lawful) (beacons : List Beacon) (meas : List BeaconMeas) :
    testPassed (testRun s beacons meas) ↔
      (∀ m ∈ meas, 0 ≤ m.distance) ∧ 3 ≤ idCount meas ∧ ∃ m ∈ meas, ∃ b ∈ beacons, b.id = m.id := by
  obtain ⟨h1, h2, h3, -, -⟩ := C68_call s hs (fillLocationBeacons (updateMeasurements Trilat.init meas) beacons)
  change ((testRun s beacons meas).1 = _ ↔ ∃ m ∈ meas, m.distance < 0) at h1
  change ((testRun s beacons meas).1 = _ ↔ (∀ m ∈ meas, 0 ≤ m.distance) ∧
    (idCount meas < 3 ∨ ∀ m ∈ meas, ∀ b ∈ beacons, b.id ≠ m.id)) at h2
  change ((testRun s beacons meas).1 ≠ .ok → (testRun s beacons meas).2.xy = some (0, 0)) at h3
  have hv : testPassed (testRun s beacons meas) ↔ (testRun s beacons meas).1 = .ok := by
    rw [C126_verdict]
    refine ⟨?_, Or.inl⟩
    rintro (h | ⟨x, y, e, h⟩)
    · exact h
    · by_contra hn
      rw [h3 hn, Option.some.injEq, Prod.mk.injEq] at e
      rw [← e.1, ← e.2] at h
      norm_num at h
  rw [hv]
  constructor
  · intro h
    have n1 : ¬ ∃ m ∈ meas, m.distance < 0 := fun hx => by rw [h1.mpr hx] at h; cases h
    have hd : ∀ m ∈ meas, 0 ≤ m.distance := by
      intro m hm
      by_contra hlt
      exact n1 ⟨m, hm, not_le.mp hlt⟩
    have n2 : ¬ (idCount meas < 3 ∨ ∀ m ∈ meas, ∀ b ∈ beacons, b.id ≠ m.id) := fun hx => by
      rw [h2.mpr ⟨hd, hx⟩] at h; cases h
    rw [not_or] at n2
    refine ⟨hd, not_lt.mp n2.1, ?_⟩
    have := n2.2
    push Not at this
    exact this
  · rintro ⟨hd, hc, m, hm, b, hb, e⟩
    cases hcode : (testRun s beacons meas).1 with
    | ok => rfl
    | ERROR_IN_TRILATER =>
      obtain ⟨m, hm, hlt⟩ := h1.mp hcode
      exact absurd hlt (not_lt.mpr (hd m hm))
    | ERROR_NO_SOLUTION_TRILATERATION =>
      rcases (h2.mp hcode).2 with h | h
      · omega
      · exact absurd e (h m hm b hb)

/-- The beacons that enter the result of the program. -/
noncomputable def testUsed : List Used :=
  [⟨447 / 100, ⟨"(53580,22667,F7826DA6-4FA2-4E98-8024-BC5B71E0893E)", 5469 / 100, 2951 / 100⟩⟩,
   ⟨1413 / 100, ⟨"(49599,56896,F7826DA6-4FA2-4E98-8024-BC5B71E0893E)", 5468 / 100, 2951 / 100⟩⟩,
   ⟨1585 / 100, ⟨"(57506,19633,F7826DA6-4FA2-4E98-8024-BC5B71E0893E)", 4905 / 100, 3216 / 100⟩⟩]

theorem test_used : UsedBy testBeacons testMeas testUsed where
  distinct := by simp [testUsed]
  measured := by
    intro p hp
    simp only [testUsed, List.mem_cons, List.not_mem_nil, or_false] at hp
    rcases hp with rfl | rfl | rfl <;> simp [testMeas]
  known := by
    intro p hp
    simp only [testUsed, List.mem_cons, List.not_mem_nil, or_false] at hp
    rcases hp with rfl | rfl | rfl
    · exact ⟨[], _, rfl, by simp⟩
    · exact ⟨[_], _, rfl, by simp⟩
    · exact ⟨[_, _], _, rfl, by simp⟩
  complete := by
    intro m hm hb
    simp only [testMeas, List.mem_cons, List.not_mem_nil, or_false] at hm
    rcases hm with rfl | rfl | rfl | rfl
    · simp [testUsed]
    · simp [testUsed]
    · simp [testUsed]
    · simp [testBeacons] at hb

theorem test_code (s : TrilatSorts) (hs : s.Lawful) : (testRun s testBeacons testMeas).1 = .ok := by
  have hd : ∀ m ∈ testMeas, 0 ≤ m.distance := by
    intro m hm
    simp only [testMeas, List.mem_cons, List.not_mem_nil, or_false] at hm
    rcases hm with rfl | rfl | rfl | rfl <;> norm_num
  obtain ⟨h1, h2, -⟩ := C68_call s hs (fillLocationBeacons (updateMeasurements Trilat.init testMeas) testBeacons)
  change ((testRun s testBeacons testMeas).1 = _ ↔ ∃ m ∈ testMeas, m.distance < 0) at h1
  change ((testRun s testBeacons testMeas).1 = _ ↔ (∀ m ∈ testMeas, 0 ≤ m.distance) ∧
    (idCount testMeas < 3 ∨ ∀ m ∈ testMeas, ∀ b ∈ testBeacons, b.id ≠ m.id)) at h2
  cases hcode : (testRun s testBeacons testMeas).1 with
  | ok => rfl
  | ERROR_IN_TRILATER =>
    obtain ⟨m, hm, hlt⟩ := h1.mp hcode
    exact absurd hlt (not_lt.mpr (hd m hm))
  | ERROR_NO_SOLUTION_TRILATERATION =>
    rcases (h2.mp hcode).2 with h | h
    · have : idCount testMeas = 4 := by simp [idCount, testMeas]
      omega
    · exact absurd rfl (h ⟨"(53580,22667,F7826DA6-4FA2-4E98-8024-BC5B71E0893E)", -(8657 / 100), 447 / 100⟩ (by simp [testMeas])
        ⟨"(53580,22667,F7826DA6-4FA2-4E98-8024-BC5B71E0893E)", 5469 / 100, 2951 / 100⟩ (by simp [testBeacons]))

/-- **C126 (finding).** The scenario of the program: the calculation returns no error, neither coordinate is the expected one (both are less
than a millimetre greater), and the program prints "test passed!". -/
theorem C126_scenario (s : TrilatSorts) (hs : s.Lawful) :
    (testRun s testBeacons testMeas).1 = .ok ∧ testPassed (testRun s testBeacons testMeas) ∧
      ∃ x y, (testRun s testBeacons testMeas).2.xy = some (x, y) ∧ 53692 / 1000 < x ∧ x < 53693 / 1000 ∧
        29977 / 1000 < y ∧ y < 29978 / 1000 := by
  have hok := test_code s hs
  refine ⟨hok, (C126_verdict _).mpr (.inl hok), ?_⟩
  obtain ⟨-, -, -, h4, -⟩ := C68_call s hs (fillLocationBeacons (updateMeasurements Trilat.init testMeas) testBeacons)
  obtain ⟨used, hu, -, -, -, hp⟩ := h4 hok
  have hm : ∀ m ∈ testMeas, ∀ m' ∈ testMeas, m.id = m'.id → m.distance = m'.distance := by
    intro m hm m' hm' e
    simp only [testMeas, List.mem_cons, List.not_mem_nil, or_false] at hm hm'
    rcases hm with rfl | rfl | rfl | rfl <;> rcases hm' with rfl | rfl | rfl | rfl <;>
      first
        | rfl
        | (exfalso; revert e; decide)
  have hpos : ∀ p ∈ used, 0 < p.distance := by
    intro p hp
    obtain ⟨m, hm, -, e⟩ := hu.measured p hp
    rw [← e]
    change m ∈ testMeas at hm
    simp only [testMeas, List.mem_cons, List.not_mem_nil, or_false] at hm
    rcases hm with rfl | rfl | rfl | rfl <;> norm_num
  refine ⟨_, _, hp hpos, ?_⟩
  rw [inverseMean_unique hu test_used hm, inverseMean_unique hu test_used hm]
  simp only [inverseMean, testUsed, List.map_cons, List.map_nil, List.sum_cons, List.sum_nil]
  norm_num

/-- Both verdicts are possible: beacons at the origin instead of those of the program pass, two measurements do not. -/
example (s : TrilatSorts) (hs : s.Lawful) : testPassed (testRun s [⟨"22211,00231", 0, 0⟩] testMeas) ∧
    ¬ testPassed (testRun s testBeacons (testMeas.take 2)) := by
  refine ⟨(C126_any_input s hs _ _).mpr ⟨?_, by simp [idCount, testMeas], ?_⟩, ?_⟩
  · intro m hm
    simp only [testMeas, List.mem_cons, List.not_mem_nil, or_false] at hm
    rcases hm with rfl | rfl | rfl | rfl <;> norm_num
  · exact ⟨⟨"22211,00231", -(2141 / 100), 1585 / 100⟩, by simp [testMeas], _, List.mem_singleton_self _, rfl⟩
  · rw [C126_any_input s hs]
    rintro ⟨-, h, -⟩
    have : idCount (testMeas.take 2) = 2 := by simp [idCount, testMeas]
    omega

end Verif.Standalone
