import Verif.Trilat.Spec
import Verif.Levels.Props
import Mathlib.Analysis.InnerProductSpace.Projection.Minimal
import Mathlib.Analysis.InnerProductSpace.PiL2

/-!
# Properties of trilateration (C50, C51)
-/

namespace Verif.Trilat

open Verif.Levels

theorem delta_eq (a b : XYZPoint) : delta a b = dist3 a b := by
  unfold delta dist3; congr 1; ring

theorem dist3_comm (a b : XYZPoint) : dist3 a b = dist3 b a := by
  unfold dist3; congr 1; ring

theorem dist3_self (a : XYZPoint) : dist3 a a = 0 := by simp [dist3]

theorem Meet.symm {l : Level} {a b : RadioData} (h : Meet l a b) : Meet l b a := by
  obtain ⟨t1, t2, h1, h2, h3⟩ := h
  exact ⟨t2, t1, h2, h1, by rw [dist3_comm, add_comm]; exact h3⟩

/-- All transmitters are known. -/
def Known (l : Level) (ms : List RadioData) : Prop := ∀ m ∈ ms, ∃ t, l.transmitter m.id = some t

theorem pushBad_spec (l : Level) (m1 : RadioData) (t1 : Transmitter XYZPoint) (h1 : l.transmitter m1.id = some t1) :
    ∀ ms, Known l ms → ∃ bad, pushBad l t1.point m1 ms = some bad ∧
      ∀ m, m ∈ bad ↔ m ∈ ms ∧ ¬ Meet l m1 m
  | [], _ => ⟨[], rfl, by simp⟩
  | m2 :: rest, hk => by
    obtain ⟨bad, hb, hm⟩ := pushBad_spec l m1 t1 h1 rest (fun m h => hk m (List.mem_cons_of_mem _ h))
    obtain ⟨t2, h2⟩ := hk m2 (by simp)
    have hmeet : Meet l m1 m2 ↔ ¬ delta t1.point t2.point > m1.distance + m2.distance := by
      rw [not_lt, delta_eq]
      constructor
      · rintro ⟨a, b, ha, hb, h⟩
        rw [h1] at ha; rw [h2] at hb; cases ha; cases hb
        exact h
      · exact fun h => ⟨t1, t2, h1, h2, h⟩
    unfold pushBad
    simp only [txPoint, h2, Option.map_some, hb]
    refine ⟨_, rfl, ?_⟩
    intro m
    split_ifs with hd
    · simp only [List.mem_cons, hm]
      constructor
      · rintro (rfl | ⟨a, b⟩)
        · exact ⟨Or.inl rfl, fun h => hmeet.mp h hd⟩
        · exact ⟨Or.inr a, b⟩
      · rintro ⟨rfl | a, b⟩
        · exact Or.inl rfl
        · exact Or.inr ⟨a, b⟩
    · rw [hm]
      constructor
      · rintro ⟨a, b⟩; exact ⟨List.mem_cons_of_mem _ a, b⟩
      · rintro ⟨a, b⟩
        rcases List.mem_cons.mp a with rfl | a
        · exact absurd (hmeet.mpr hd) b
        · exact ⟨a, b⟩

/-- The general invariant of the outer loop. -/
theorem badLoop_spec (l : Level) (all : List RadioData) (hk : Known l all) :
    ∀ (rest bad : List RadioData), (∀ m ∈ rest, m ∈ all) →
      ∃ fin, badLoop l all rest bad = some fin ∧ (∀ b ∈ bad, b ∈ fin) ∧
        (∀ b ∈ fin, b ∈ bad ∨ (b ∈ all ∧ ∃ m ∈ all, ¬ Meet l m b)) ∧
        ∀ m ∈ rest, m.id ∉ fin.map RadioData.id → ∀ b ∈ all, ¬ Meet l m b → b ∈ fin
  | [], bad, _ => ⟨bad, rfl, fun _ h => h, fun _ h => Or.inl h, by simp⟩
  | m1 :: rest, bad, hs => by
    by_cases hin : m1.id ∈ bad.map RadioData.id
    · obtain ⟨fin, h1, h2, h3, h4⟩ := badLoop_spec l all hk rest bad (fun m h => hs m (List.mem_cons_of_mem _ h))
      refine ⟨fin, ?_, h2, h3, ?_⟩
      · unfold badLoop; rw [if_pos hin, h1]
      · intro m hm hnot
        rcases List.mem_cons.mp hm with rfl | hm
        · exfalso
          obtain ⟨b, hb, e⟩ := List.mem_map.mp hin
          exact hnot (List.mem_map.mpr ⟨b, h2 b hb, e⟩)
        · exact h4 m hm hnot
    · obtain ⟨t1, ht1⟩ := hk m1 (hs m1 (by simp))
      obtain ⟨new, hn1, hn2⟩ := pushBad_spec l m1 t1 ht1 all hk
      obtain ⟨fin, h1, h2, h3, h4⟩ := badLoop_spec l all hk rest (bad ++ new)
        (fun m h => hs m (List.mem_cons_of_mem _ h))
      refine ⟨fin, ?_, fun b hb => h2 b (by simp [hb]), ?_, ?_⟩
      · unfold badLoop
        rw [if_neg hin]
        simp only [txPoint, ht1, Option.map_some, hn1, h1]
      · intro b hb
        rcases h3 b hb with h | h
        · rcases List.mem_append.mp h with h | h
          · exact Or.inl h
          · have := (hn2 b).mp h
            exact Or.inr ⟨this.1, m1, hs m1 (by simp), this.2⟩
        · exact Or.inr h
      · intro m hm hnot
        rcases List.mem_cons.mp hm with rfl | hm
        · intro b hb hmeet
          exact h2 b (List.mem_append_right _ ((hn2 b).mpr ⟨hb, hmeet⟩))
        · exact h4 m hm hnot

theorem foldl_filter_ids (bad ms : List RadioData) :
    bad.foldl (fun new m => new.filter (fun e => ¬ m.id = e.id)) ms =
      ms.filter (fun e => e.id ∉ bad.map RadioData.id) := by
  induction bad generalizing ms with
  | nil => simp
  | cons b bad ih =>
    rw [List.foldl_cons, ih, List.filter_filter]
    apply List.filter_congr
    intro e _
    simp only [List.map_cons, List.mem_cons, not_or]
    by_cases h : b.id = e.id
    · simp [h]
    · have : ¬ e.id = b.id := fun h' => h h'.symm
      simp [h, this]

/-- **C50.** For measurements of known transmitters and any sorting: the result is the sorted list without
some ids; any two results (also a result with itself) meet; the id of each removed measurement has a
measurement that misses some ball. -/
theorem C50_intersect {sort : List RadioData → List RadioData}
    (hsort : SortsBy (fun a b => a.distance < b.distance) sort) (l : Level) (ms : List RadioData)
    (hk : ∀ m ∈ ms, ∃ t, l.transmitter m.id = some t) :
    ∃ res, getIntersected sort l ms = some res ∧ res.Sublist (sort ms) ∧
      res.Pairwise (fun a b => a.distance ≤ b.distance) ∧
      (∀ a ∈ res, a ∈ ms) ∧ (∀ a ∈ res, ∀ b ∈ res, Meet l a b) ∧
      ∀ a ∈ ms, a ∉ res → ∃ b ∈ ms, ∃ a' ∈ ms, a'.id = a.id ∧ ¬ Meet l b a' := by
  have hk' : Known l (sort ms) := fun m h => hk m ((hsort.perm ms).mem_iff.mp h)
  obtain ⟨fin, h1, -, h3, h4⟩ := badLoop_spec l (sort ms) hk' (sort ms) [] (fun _ h => h)
  have hres : getIntersected sort l ms = some ((sort ms).filter (fun e => e.id ∉ fin.map RadioData.id)) := by
    unfold getIntersected
    simp only [h1, Option.map_some, foldl_filter_ids]
  refine ⟨_, hres, List.filter_sublist, ?_, ?_, ?_, ?_⟩
  · refine List.Pairwise.sublist List.filter_sublist ?_
    exact (hsort.sorted ms).imp (fun h => not_lt.mp h)
  · intro a ha
    exact (hsort.perm ms).mem_iff.mp (List.mem_filter.mp ha).1
  · intro a ha b hb
    by_contra hmeet
    obtain ⟨ha1, ha2⟩ := List.mem_filter.mp ha
    obtain ⟨hb1, hb2⟩ := List.mem_filter.mp hb
    have := h4 a ha1 (by simpa using ha2) b hb1 hmeet
    exact (by simpa using hb2 : b.id ∉ fin.map RadioData.id) (List.mem_map.mpr ⟨b, this, rfl⟩)
  · intro a ha hnot
    have ha' := (hsort.perm ms).mem_iff.mpr ha
    have : a.id ∈ fin.map RadioData.id := by
      by_contra h
      exact hnot (List.mem_filter.mpr ⟨ha', by simpa using h⟩)
    obtain ⟨b, hb, e⟩ := List.mem_map.mp this
    rcases h3 b hb with h | ⟨hb1, m, hm, hmeet⟩
    · cases h
    · exact ⟨m, (hsort.perm ms).mem_iff.mp hm, b, (hsort.perm ms).mem_iff.mp hb1, e, hmeet⟩

/-- The invariant of the outer loop for distinct ids and non-negative distances: `done` was processed. -/
theorem badLoop_kept (l : Level) (all : List RadioData) (hk : Known l all) (hnd : (all.map RadioData.id).Nodup)
    (hpos : ∀ m ∈ all, 0 ≤ m.distance) (hsorted : all.Pairwise (fun a b => a.distance ≤ b.distance)) :
    ∀ (rest done bad fin : List RadioData), all = done ++ rest →
      (∀ b ∈ bad, b ∈ all ∧ ∃ m ∈ done, m ∉ bad ∧ ¬ Meet l m b ∧ m.distance ≤ b.distance) →
      (∀ m ∈ done, m ∉ bad → ∀ b ∈ all, ¬ Meet l m b → b ∈ bad) →
      badLoop l all rest bad = some fin →
      ∀ b ∈ fin, b ∈ all ∧ ∃ m ∈ all, m ∉ fin ∧ ¬ Meet l m b ∧ m.distance ≤ b.distance
  | [], done, bad, fin, he, h1, _, hf => by
    simp only [badLoop, Option.some.injEq] at hf
    subst hf
    intro b hb
    obtain ⟨hb1, m, hm, hm'⟩ := h1 b hb
    exact ⟨hb1, m, by rw [he]; simp [hm], hm'⟩
  | m1 :: rest, done, bad, fin, he, h1, h2, hf => by
    have hm1 : m1 ∈ all := by rw [he]; simp
    have inj : ∀ x ∈ all, ∀ y ∈ all, x.id = y.id → x = y := fun x hx y hy e =>
      List.inj_on_of_nodup_map hnd hx hy e
    have hself : ∀ m ∈ all, Meet l m m := by
      intro m hm
      obtain ⟨t, ht⟩ := hk m hm
      exact ⟨t, t, ht, ht, by rw [dist3_self]; linarith [hpos m hm]⟩
    by_cases hin : m1.id ∈ bad.map RadioData.id
    · unfold badLoop at hf
      rw [if_pos hin] at hf
      obtain ⟨b0, hb0, e0⟩ := List.mem_map.mp hin
      have hmb : m1 ∈ bad := by
        have : b0 = m1 := inj b0 (h1 b0 hb0).1 m1 hm1 e0
        rwa [← this]
      refine badLoop_kept l all hk hnd hpos hsorted rest (done ++ [m1]) bad fin (by simp [he]) ?_ ?_ hf
      · intro b hb
        obtain ⟨hb1, m, hm, hm'⟩ := h1 b hb
        exact ⟨hb1, m, by simp [hm], hm'⟩
      · intro m hm hnot
        rcases List.mem_append.mp hm with hm | hm
        · exact h2 m hm hnot
        · rw [List.mem_singleton] at hm
          subst hm
          exact absurd hmb hnot
    · obtain ⟨t1, ht1⟩ := hk m1 hm1
      obtain ⟨new, hn1, hn2⟩ := pushBad_spec l m1 t1 ht1 all hk
      have hm1bad : m1 ∉ bad := fun h => hin (List.mem_map.mpr ⟨m1, h, rfl⟩)
      unfold badLoop at hf
      rw [if_neg hin] at hf
      simp only [txPoint, ht1, Option.map_some, hn1] at hf
      refine badLoop_kept l all hk hnd hpos hsorted rest (done ++ [m1]) (bad ++ new) fin (by simp [he]) ?_ ?_ hf
      · intro b hb
        by_cases hbad : b ∈ bad
        · obtain ⟨hb1, m, hm, hmb, hmm, hd⟩ := h1 b hbad
          refine ⟨hb1, m, by simp [hm], ?_, hmm, hd⟩
          intro h
          rcases List.mem_append.mp h with h | h
          · exact hmb h
          · have := (hn2 m).mp h
            exact hm1bad (h2 m hm hmb m1 hm1 (fun hh => this.2 hh.symm))
        · have hnew : b ∈ new := by
            rcases List.mem_append.mp hb with h | h
            · exact absurd h hbad
            · exact h
          obtain ⟨hb1, hmeet⟩ := (hn2 b).mp hnew
          refine ⟨hb1, m1, by simp, ?_, hmeet, ?_⟩
          · intro h
            rcases List.mem_append.mp h with h | h
            · exact hm1bad h
            · exact ((hn2 m1).mp h).2 (hself m1 hm1)
          · rw [he] at hb1
            rcases List.mem_append.mp hb1 with hd | hd
            · exact absurd (h2 b hd hbad m1 hm1 (fun hh => hmeet hh.symm)) hm1bad
            · rcases List.mem_cons.mp hd with rfl | hd
              · exact le_refl _
              · rw [he] at hsorted
                exact (List.pairwise_cons.mp (List.pairwise_append.mp hsorted).2.1).1 b hd
      · intro m hm hnot b hb hmeet
        have hnot1 : m ∉ bad := fun h => hnot (List.mem_append_left _ h)
        rcases List.mem_append.mp hm with hm | hm
        · exact List.mem_append_left _ (h2 m hm hnot1 b hb hmeet)
        · rw [List.mem_singleton] at hm
          subst hm
          exact List.mem_append_right _ ((hn2 b).mpr ⟨hb, hmeet⟩)

/-- **C50, maximality.** With distinct ids and non-negative distances, each removed measurement misses the ball
of a kept one that is not farther. So nothing is removed needlessly, and the nearest measurement stays. -/
theorem C50_maximal {sort : List RadioData → List RadioData}
    (hsort : SortsBy (fun a b => a.distance < b.distance) sort) (l : Level) (ms res : List RadioData)
    (hk : ∀ m ∈ ms, ∃ t, l.transmitter m.id = some t) (hnd : (ms.map RadioData.id).Nodup)
    (hpos : ∀ m ∈ ms, 0 ≤ m.distance) (h : getIntersected sort l ms = some res) :
    ∀ a ∈ ms, a ∉ res → ∃ b ∈ res, ¬ Meet l b a ∧ b.distance ≤ a.distance := by
  have hk' : Known l (sort ms) := fun m h => hk m ((hsort.perm ms).mem_iff.mp h)
  obtain ⟨fin, h1, -, -, -⟩ := badLoop_spec l (sort ms) hk' (sort ms) [] (fun _ h => h)
  have hnd' : ((sort ms).map RadioData.id).Nodup := ((hsort.perm ms).map _).nodup_iff.mpr hnd
  have hkept := badLoop_kept l (sort ms) hk' hnd'
    (fun m h => hpos m ((hsort.perm ms).mem_iff.mp h)) ((hsort.sorted ms).imp (fun h => not_lt.mp h))
    (sort ms) [] [] fin rfl (by simp) (by simp) h1
  have hres : getIntersected sort l ms = some ((sort ms).filter (fun e => e.id ∉ fin.map RadioData.id)) := by
    unfold getIntersected
    simp only [h1, Option.map_some, foldl_filter_ids]
  rw [hres] at h
  cases h
  have mem : ∀ x ∈ sort ms, x.id ∈ fin.map RadioData.id → x ∈ fin := by
    intro x hx hid
    obtain ⟨b, hb, e⟩ := List.mem_map.mp hid
    rw [← List.inj_on_of_nodup_map hnd' (hkept b hb).1 hx e]
    exact hb
  intro a ha hnot
  have ha' := (hsort.perm ms).mem_iff.mpr ha
  have : a.id ∈ fin.map RadioData.id := by
    by_contra h
    exact hnot (List.mem_filter.mpr ⟨ha', by simpa using h⟩)
  obtain ⟨-, m, hm, hmf, hmeet, hd⟩ := hkept a (mem a ha' this)
  refine ⟨m, List.mem_filter.mpr ⟨hm, ?_⟩, hmeet, hd⟩
  have : m.id ∉ fin.map RadioData.id := fun h => hmf (mem m hm h)
  simpa using this

/-- The level of the examples: four beacons that are not in one plane. -/
def exampleLevel : Level :=
  ⟨"l", ⟨0, 0⟩, [("a", ⟨"a", ⟨0, 0, 3⟩, ⟨0, 0, 0⟩, .BEACON⟩), ("b", ⟨"b", ⟨4, 0, 3⟩, ⟨0, 0, 0⟩, .BEACON⟩),
    ("c", ⟨"c", ⟨0, 4, 3⟩, ⟨0, 0, 0⟩, .BEACON⟩), ("d", ⟨"d", ⟨0, 0, 5⟩, ⟨0, 0, 0⟩, .BEACON⟩)],
    ⟨[], []⟩, ⟨[], ⟨⟨0, 0⟩, ⟨0, 0⟩⟩, []⟩, NavGraph.run []⟩

/-- A measured distance. -/
def measured (id : String) (d : ℝ) : RadioData := ⟨.BEACON, id, 0, 0, d, 0⟩

/-- Non-vacuity of C50: measurements that meet and measurements that miss each other. -/
example : Meet exampleLevel (measured "a" 3) (measured "b" 1) ∧
    ¬ Meet exampleLevel (measured "a" 1) (measured "b" 1) := by
  have h4 : dist3 ⟨0, 0, 3⟩ ⟨4, 0, 3⟩ = 4 := by
    unfold dist3
    rw [show ((0 : ℝ) - 4) ^ 2 + (0 - 0) ^ 2 + (3 - 3) ^ 2 = 4 * 4 by norm_num]
    exact Real.sqrt_mul_self (by norm_num)
  constructor
  · refine ⟨_, _, rfl, rfl, ?_⟩
    rw [h4]; norm_num [measured]
  · rintro ⟨a, b, ha, hb, h⟩
    cases ha; cases hb
    rw [h4] at h
    norm_num [measured] at h

/-! ## C51 -/

/-- **C51, four balls.** An altitude is answered only if at least four measurements of this level have balls
that meet in pairs. -/
theorem C51_four {sort : List RadioData → List RadioData}
    (hsort : SortsBy (fun a b => a.distance < b.distance) sort) (solve : List Row → XYZPoint) (l : Level)
    (msr : List RadioData) (a : Altitude) (h : calculateAltitude sort solve l msr = some a) (ha : a ≠ .none) :
    ∃ res perm : List RadioData, perm.Perm msr ∧ res.Sublist perm ∧ 4 ≤ res.length ∧
      ∀ x ∈ res, ∀ y ∈ res, Meet l x y := by
  have hk : ∀ m ∈ getLevelRadioMeasurements RadioData.id l msr, ∃ t, l.transmitter m.id = some t := by
    intro m hm
    have := (List.mem_filter.mp hm).2
    unfold Level.containsTransmitter at this
    exact Option.isSome_iff_exists.mp this
  obtain ⟨res, h1, h2, -, -, h3, -⟩ := C50_intersect hsort l _ hk
  have hperm : ∃ perm : List RadioData, perm.Perm msr ∧
      (sort (getLevelRadioMeasurements RadioData.id l msr)).Sublist perm := by
    refine ⟨sort (getLevelRadioMeasurements RadioData.id l msr) ++
      msr.filter (fun m => ¬ l.containsTransmitter m.id = true), ?_, List.sublist_append_left _ _⟩
    refine ((hsort.perm _).append_right _).trans ?_
    unfold getLevelRadioMeasurements
    have := List.filter_append_perm (fun m : RadioData => l.containsTransmitter m.id) msr
    refine (List.Perm.append_left _ ?_).trans this
    apply List.Perm.of_eq
    apply List.filter_congr
    intro m _
    cases l.containsTransmitter m.id <;> rfl
  obtain ⟨perm, hp1, hp2⟩ := hperm
  refine ⟨res, perm, hp1, h2.trans hp2, ?_, h3⟩
  by_contra hlt
  unfold calculateAltitude at h
  rw [h1] at h
  dsimp only at h
  rw [if_pos (by omega)] at h
  cases h
  exact ha rfl

/-- **C51, the equations.** If the two distances are the true ones from the point `t`, the displacement of `t`
from the first transmitter satisfies the equation built from the two measurements. -/
theorem C51_equation (t p1 p2 : XYZPoint) :
    let r := row p1 (dist3 t p1) p2 (dist3 t p2)
    r.x * (t.x - p1.x) + r.y * (t.y - p1.y) + r.z * (t.z - p1.z) = r.b := by
  intro r
  simp only [r, row]
  have h : ∀ a b : XYZPoint, dist3 a b ^ 2 = (a.x - b.x) ^ 2 + (a.y - b.y) ^ 2 + (a.z - b.z) ^ 2 := by
    intro a b
    unfold dist3
    exact Real.sq_sqrt (by positivity)
  rw [h, h]
  ring

theorem residual_nonneg (rows : List Row) (v : XYZPoint) : 0 ≤ residual rows v := by
  unfold residual
  apply List.sum_nonneg
  intro x hx
  obtain ⟨r, -, rfl⟩ := List.mem_map.mp hx
  positivity

theorem residual_zero (rows : List Row) (v : XYZPoint) :
    residual rows v = 0 ↔ ∀ r ∈ rows, r.x * v.x + r.y * v.y + r.z * v.z = r.b := by
  induction rows with
  | nil => simp [residual]
  | cons r rows ih =>
    have e : residual (r :: rows) v = (r.x * v.x + r.y * v.y + r.z * v.z - r.b) ^ 2 + residual rows v := by
      simp [residual]
    rw [e]
    have h0 := residual_nonneg rows v
    have h1 := sq_nonneg (r.x * v.x + r.y * v.y + r.z * v.z - r.b)
    constructor
    · intro h
      have h2 : (r.x * v.x + r.y * v.y + r.z * v.z - r.b) ^ 2 = 0 := by linarith
      have h3 : residual rows v = 0 := by linarith
      intro s hs
      rcases List.mem_cons.mp hs with rfl | hs
      · have := pow_eq_zero_iff (two_ne_zero) |>.mp h2
        linarith
      · exact ih.mp h3 s hs
    · intro h
      have h2 := h r (by simp)
      have h3 := ih.mpr (fun s hs => h s (List.mem_cons_of_mem _ hs))
      rw [h3, h2]; simp

/-- **C51, exact distances.** If all distances are the true ones from the point `t` and the transmitters are not
in one plane, then every least squares solver finds the displacement of `t` from the first transmitter. -/
theorem C51_solution (solve : List Row → XYZPoint) (hls : LeastSquares solve) (t p1 : XYZPoint)
    (ps : List XYZPoint)
    (hspan : ∀ v : XYZPoint, (∀ p ∈ ps, (p.x - p1.x) * v.x + (p.y - p1.y) * v.y + (p.z - p1.z) * v.z = 0) →
      v = ⟨0, 0, 0⟩) :
    solve (ps.map (fun p => row p1 (dist3 t p1) p (dist3 t p))) = ⟨t.x - p1.x, t.y - p1.y, t.z - p1.z⟩ := by
  set rows := ps.map (fun p => row p1 (dist3 t p1) p (dist3 t p)) with hrows
  have h0 : residual rows ⟨t.x - p1.x, t.y - p1.y, t.z - p1.z⟩ = 0 := by
    rw [residual_zero]
    intro r hr
    obtain ⟨p, -, rfl⟩ := List.mem_map.mp hr
    exact C51_equation t p1 p
  have h1 : residual rows (solve rows) = 0 :=
    le_antisymm ((hls rows _).trans h0.le) (residual_nonneg _ _)
  rw [residual_zero] at h0 h1
  have := hspan ⟨(solve rows).x - (t.x - p1.x), (solve rows).y - (t.y - p1.y), (solve rows).z - (t.z - p1.z)⟩ (by
    intro p hp
    have hm : row p1 (dist3 t p1) p (dist3 t p) ∈ rows := List.mem_map.mpr ⟨p, hp, rfl⟩
    have a := h0 _ hm
    have b := h1 _ hm
    simp only [row] at a b
    dsimp only
    linear_combination b - a)
  simp only [XYZPoint.mk.injEq] at this
  obtain ⟨a, b, c⟩ := this
  cases hs : solve rows
  rw [hs] at a b c
  simp only at a b c
  simp only [XYZPoint.mk.injEq]
  exact ⟨by linarith, by linarith, by linarith⟩

/-- The contract of the solver can be met. -/
theorem leastSquares_exists : ∃ solve, LeastSquares solve := by
  have key : ∀ rows : List Row, ∃ w, ∀ v, residual rows w ≤ residual rows v := by
    intro rows
    let n := rows.length
    let A : (EuclideanSpace ℝ (Fin 3)) →ₗ[ℝ] EuclideanSpace ℝ (Fin n) :=
      { toFun := fun v => WithLp.toLp 2 (fun i => (rows.get i).x * v 0 + (rows.get i).y * v 1 + (rows.get i).z * v 2)
        map_add' := by intro u v; ext i; simp; ring
        map_smul' := by intro c v; ext i; simp; ring }
    let b : EuclideanSpace ℝ (Fin n) := WithLp.toLp 2 (fun i => (rows.get i).b)
    obtain ⟨y, hy, hmin⟩ := Submodule.exists_norm_eq_iInf_of_complete_subspace (LinearMap.range A)
      (Submodule.complete_of_finiteDimensional _) b
    obtain ⟨w, rfl⟩ := hy
    have res : ∀ v : EuclideanSpace ℝ (Fin 3), residual rows ⟨v 0, v 1, v 2⟩ = ‖b - A v‖ ^ 2 := by
      intro v
      rw [EuclideanSpace.norm_sq_eq]
      unfold residual
      rw [← List.sum_ofFn]
      congr 1
      apply List.ext_getElem
      · simp [n]
      · intro i h1 h2
        simp [A, b]
        ring
    refine ⟨⟨w 0, w 1, w 2⟩, ?_⟩
    intro v
    have hv : residual rows v = ‖b - A (WithLp.toLp 2 ![v.x, v.y, v.z])‖ ^ 2 := by
      rw [← res]
      simp
    rw [res, hv]
    apply pow_le_pow_left₀ (norm_nonneg _)
    rw [hmin]
    exact ciInf_le ⟨0, by rintro _ ⟨x, rfl⟩; exact norm_nonneg _⟩
      (⟨A (WithLp.toLp 2 ![v.x, v.y, v.z]), LinearMap.mem_range_self _ _⟩ : LinearMap.range A)
  choose f hf using key
  exact ⟨f, hf⟩

end Verif.Trilat
