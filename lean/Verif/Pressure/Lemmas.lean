import Verif.Pressure.Spec
import Verif.Floors.Props

/-!
# The floor in use with a barometer
-/

namespace Verif.Pressure

open Verif.Levels Verif.Nav Verif.Floors
open Verif.Knn (Result)

theorem counted_snoc (g : Garbage) (ms : List Measurement) (m : Measurement) (h : ms ≠ []) :
    counted g (ms ++ [m]) = counted g ms ++ (pressureSeen g (ms ++ [m])).toList := by
  have hl : 0 < ms.length := List.length_pos_iff.mpr h
  unfold counted
  rw [List.length_append, List.length_singleton, List.range_succ, List.drop_append_of_le_length (by simp; omega),
    List.filterMap_append]
  congr 1
  · apply List.filterMap_congr
    intro k hk
    have hk : k < ms.length := List.mem_range.mp (List.mem_of_mem_drop hk)
    rw [List.take_append_of_le_length hk]
  · rw [List.filterMap_cons, List.filterMap_nil, List.take_of_length_le (by simp)]
    cases pressureSeen g (ms ++ [m]) <;> rfl

theorem counted_small (g : Garbage) (ms : List Measurement) (h : ms.length ≤ 1) : counted g ms = [] := by
  unfold counted
  rw [List.drop_eq_nil_of_le (by simpa using h)]
  rfl

theorem free_small (g : Garbage) (ms : List Measurement) (h : ms.length ≤ 1) : Free g ms := by
  left; rw [counted_small g ms h]; simp

theorem pressureSeen_eq (g : Garbage) (ms : List Measurement) : pressureSeen g ms =
    if (lastSensor g.sensor ms).data.type = .BAROMETER then some (lastSensor g.sensor ms).data.values.x else none := rfl

/-! ## The floor in use -/

theorem used_nil {ls : List Level} {cs : CommonSettings} {g : Garbage} : FloorUsed ls cs g [] none :=
  ⟨[], [], rfl, free_small g _ (by simp), by
    intro a b h hne
    exact absurd (List.append_eq_nil_iff.mp h.symm).1 hne, rfl⟩

theorem used_free {ls : List Level} {cs : CommonSettings} {g : Garbage} {ms : List Measurement} (hf : Free g ms) (o : Option Level) :
    FloorUsed ls cs g ms o ↔ BySignals ls cs ms o := by
  constructor
  · rintro ⟨past, rest, h1, -, h3, h4⟩
    cases rest with
    | nil => rw [h1, List.append_nil]; exact h4
    | cons r rest => exact absurd (h1 ▸ hf) (h3 (r :: rest) [] (by simp) (by simp))
  · intro h
    refine ⟨ms, [], by simp, hf, ?_, h⟩
    intro a b h hne
    exact absurd (List.append_eq_nil_iff.mp h.symm).1 hne

theorem used_held {ls : List Level} {cs : CommonSettings} {g : Garbage} {ms : List Measurement} {m : Measurement}
    (hf : ¬ Free g (ms ++ [m])) (o : Option Level) : FloorUsed ls cs g (ms ++ [m]) o ↔ FloorUsed ls cs g ms o := by
  constructor
  · rintro ⟨past, rest, h1, h2, h3, h4⟩
    cases rest using List.reverseRecOn with
    | nil => rw [List.append_nil] at h1; rw [h1] at hf; exact absurd h2 hf
    | append_singleton rest r _ =>
      rw [← List.append_assoc] at h1
      obtain ⟨e1, -⟩ := List.append_inj' h1 rfl
      exact ⟨past, rest, e1, h2, fun a b e hne => h3 a (b ++ [r]) (by rw [e, List.append_assoc]) hne, h4⟩
  · rintro ⟨past, rest, h1, h2, h3, h4⟩
    refine ⟨past, rest ++ [m], by rw [h1, List.append_assoc], h2, ?_, h4⟩
    intro a b e hne
    cases b using List.reverseRecOn with
    | nil =>
      rw [List.append_nil] at e
      rw [← e, ← List.append_assoc, ← h1]
      exact hf
    | append_singleton b r _ =>
      rw [← List.append_assoc] at e
      obtain ⟨e1, -⟩ := List.append_inj' e rfl
      exact h3 a b e1 hne

theorem bySignals_unique {ls : List Level} (hm : GoodMap ls) {cs : CommonSettings} {ms : List Measurement} {o o' : Option Level}
    (h : BySignals ls cs ms o) (h' : BySignals ls cs ms o') : o = o' := by
  have hno : ∀ lv : Level, closedWindows ls cs ms = [] → ¬ FloorInUse ls (closedWindows ls cs ms) lv := by
    rintro lv h0 ⟨-, ds, hds, hu⟩
    rw [h0] at hds
    cases hds
    cases hu
  cases o with
  | none =>
    cases o' with
    | none => rfl
    | some lv => exact absurd h' (hno lv h)
  | some lv =>
    cases o' with
    | none => exact absurd h (hno lv h')
    | some lv' => rw [(C118_unique hm h h').1]

theorem used_unique {ls : List Level} (hm : GoodMap ls) {cs : CommonSettings} {g : Garbage} {ms : List Measurement} {o o' : Option Level}
    (h : FloorUsed ls cs g ms o) (h' : FloorUsed ls cs g ms o') : o = o' := by
  induction ms using List.reverseRecOn with
  | nil =>
    rw [used_free (free_small g _ (by simp))] at h h'
    exact bySignals_unique hm h h'
  | append_singleton ms m ih =>
    by_cases hf : Free g (ms ++ [m])
    · rw [used_free hf] at h h'
      exact bySignals_unique hm h h'
    · rw [used_held hf] at h h'
      exact ih h h'

theorem windows_prefix (ls : List Level) (cs : CommonSettings) (a b : List Measurement) :
    ∃ t, closedWindows ls cs (a ++ b) = closedWindows ls cs a ++ t := by
  induction b using List.reverseRecOn with
  | nil => exact ⟨[], by simp⟩
  | append_singleton b m ih =>
    obtain ⟨t, ih⟩ := ih
    rw [← List.append_assoc, closedWindows_snoc, ih, List.append_assoc]
    exact ⟨_, rfl⟩

/-- Once there is a floor in use, there always is one. -/
theorem used_none {ls : List Level} {cs : CommonSettings} {g : Garbage} {ms : List Measurement} {m : Measurement}
    (h : FloorUsed ls cs g (ms ++ [m]) none) {o : Option Level} (ho : FloorUsed ls cs g ms o) : FloorUsed ls cs g ms none := by
  by_cases hf : Free g (ms ++ [m])
  · rw [used_free hf] at h
    obtain ⟨past, rest, h1, h2, h3, -⟩ := ho
    refine ⟨past, rest, h1, h2, h3, ?_⟩
    change closedWindows ls cs past = []
    obtain ⟨t, e⟩ := windows_prefix ls cs past (rest ++ [m])
    rw [← List.append_assoc, ← h1] at e
    have h : closedWindows ls cs (ms ++ [m]) = [] := h
    rw [h] at e
    exact (List.append_eq_nil_iff.mp e.symm).1
  · rwa [used_held hf] at h

theorem used_mem {ls : List Level} {cs : CommonSettings} {g : Garbage} {ms : List Measurement} {lv : Level}
    (h : FloorUsed ls cs g ms (some lv)) : lv ∈ ls := by
  obtain ⟨_, _, -, -, -, h⟩ := h
  exact h.1

/-! ## The last place -/

theorem places_unique {ls : List Level} (hm : GoodMap ls) {cs : CommonSettings} {g : Garbage} {ms : List Measurement} {m : Measurement}
    {lv lv' : Level} {win win' : List RadioMeasurement} (h : Places ls cs g ms m lv win) (h' : Places ls cs g ms m lv' win') :
    lv = lv' ∧ win = win' := by
  have h1 := used_unique hm h.floor h'.floor
  have h2 := h.window
  rw [h'.window] at h2
  cases h1
  cases h2
  exact ⟨rfl, rfl⟩

theorem cons_snoc {α : Type} {ms a b : List α} {m x : α} (h : ms ++ [x] = a ++ m :: b) :
    (b = [] ∧ a = ms ∧ m = x) ∨ ∃ b', b = b' ++ [x] ∧ ms = a ++ m :: b' := by
  cases b using List.reverseRecOn with
  | nil =>
    obtain ⟨e1, e2⟩ := List.append_inj' h rfl
    cases e2
    exact Or.inl ⟨rfl, e1.symm, rfl⟩
  | append_singleton b r _ =>
    rw [← List.cons_append, ← List.append_assoc] at h
    obtain ⟨e1, e2⟩ := List.append_inj' h rfl
    cases e2
    exact Or.inr ⟨b, rfl, e1⟩

theorem last_now {ls : List Level} {cs : CommonSettings} {g : Garbage} {ms : List Measurement} {m : Measurement}
    {lv : Level} {win : List RadioMeasurement} (h : Places ls cs g ms m lv win) : LastPlace ls cs g (ms ++ [m]) lv m.ts win :=
  ⟨ms, m, [], rfl, h, rfl, by intro b1 m' b2 e; simp at e⟩

theorem last_now_only {ls : List Level} (hm : GoodMap ls) {cs : CommonSettings} {g : Garbage} {ms : List Measurement} {m : Measurement}
    {lv lv' : Level} {win win' : List RadioMeasurement} {t0 : Int} (h : Places ls cs g ms m lv win)
    (h' : LastPlace ls cs g (ms ++ [m]) lv' t0 win') : lv' = lv ∧ t0 = m.ts ∧ win' = win := by
  obtain ⟨a, e, b, e1, e2, e3, e4⟩ := h'
  rcases cons_snoc e1 with ⟨-, rfl, rfl⟩ | ⟨b', rfl, rfl⟩
  · obtain ⟨rfl, rfl⟩ := places_unique hm h e2
    exact ⟨rfl, e3.symm, rfl⟩
  · exact absurd h (e4 b' m [] rfl lv win)

theorem last_before {ls : List Level} {cs : CommonSettings} {g : Garbage} {ms : List Measurement} {m : Measurement}
    (hno : ∀ lv win, ¬ Places ls cs g ms m lv win) {lv : Level} {win : List RadioMeasurement} {t0 : Int} :
    LastPlace ls cs g (ms ++ [m]) lv t0 win ↔ LastPlace ls cs g ms lv t0 win := by
  constructor
  · rintro ⟨a, e, b, e1, e2, e3, e4⟩
    rcases cons_snoc e1 with ⟨-, rfl, rfl⟩ | ⟨b', rfl, rfl⟩
    · exact absurd e2 (hno _ _)
    · exact ⟨a, e, b', rfl, e2, e3, fun b1 m' b2 h => e4 b1 m' (b2 ++ [m]) (by rw [h]; simp)⟩
  · rintro ⟨a, e, b, rfl, e2, e3, e4⟩
    refine ⟨a, e, b ++ [m], by simp, e2, e3, ?_⟩
    intro b1 m' b2 h
    rcases cons_snoc h with ⟨-, rfl, rfl⟩ | ⟨b', rfl, rfl⟩
    · exact hno
    · exact e4 b1 m' b' rfl

theorem noPlace_before {ls : List Level} {cs : CommonSettings} {g : Garbage} {ms : List Measurement} {m : Measurement}
    (h : NoPlace ls cs g (ms ++ [m])) : NoPlace ls cs g ms ∧ ∀ lv win, ¬ Places ls cs g ms m lv win :=
  ⟨fun a e b h1 => h a e (b ++ [m]) (by rw [h1]; simp), h ms m [] rfl⟩

theorem last_or_none (ls : List Level) (cs : CommonSettings) (g : Garbage) (ms : List Measurement) :
    (∃ lv t0 win, LastPlace ls cs g ms lv t0 win) ∨ NoPlace ls cs g ms := by
  induction ms using List.reverseRecOn with
  | nil =>
    right
    intro a m b h
    simp at h
  | append_singleton ms m ih =>
    by_cases hp : ∃ lv win, Places ls cs g ms m lv win
    · obtain ⟨lv, win, hp⟩ := hp
      exact Or.inl ⟨lv, m.ts, win, last_now hp⟩
    · push Not at hp
      rcases ih with ⟨lv, t0, win, h⟩ | h
      · exact Or.inl ⟨lv, t0, win, (last_before hp).mpr h⟩
      · right
        intro a e b h1
        rcases cons_snoc h1 with ⟨-, rfl, rfl⟩ | ⟨b', rfl, rfl⟩
        · exact hp
        · exact h a e b' rfl

/-! ## The barometer object -/

/-- The id of a floor, if there is one. -/
def nameOf (o : Option Level) : String := (o.map Level.id).getD ""

theorem nameOf_inj {ls : List Level} (hm : GoodMap ls) {o o' : Option Level} (h : ∀ lv, o = some lv → lv ∈ ls)
    (h' : ∀ lv, o' = some lv → lv ∈ ls) (he : nameOf o = nameOf o') : o = o' := by
  cases o with
  | none =>
    cases o' with
    | none => rfl
    | some b => exact absurd he.symm (hm.named b (h' b rfl))
  | some a =>
    cases o' with
    | none => exact absurd he (hm.named a (h a rfl))
    | some b =>
      have := List.inj_on_of_nodup_map hm.nodup (h a rfl) (h' b rfl) he
      rw [this]

/-- What the barometer object holds after the measurements `ms`. -/
def Barometric (ls : List Level) (cs : CommonSettings) (g : Garbage) (ms : List Measurement) (b : LevelEst.Barometer) : Prop :=
  ∃ calls, b = LevelEst.runBaro calls ∧ calls.length = ms.length ∧ LevelEst.pressures calls = counted g ms ∧
    ∀ past c', calls = past ++ [c'] → ∀ o, FloorUsed ls cs g ms o → LevelEst.baroOut past c' = nameOf o

theorem barometric_init (ls : List Level) (cs : CommonSettings) (g : Garbage) : Barometric ls cs g [] LevelEst.Barometer.init :=
  ⟨[], rfl, rfl, rfl, by intro past c' h; simp at h⟩

/-- One measurement: the floor given by the signals is taken over if the floor is free to change. -/
theorem barometric_step {ls : List Level} {cs : CommonSettings} {g : Garbage} {ms : List Measurement} {b : LevelEst.Barometer}
    (hb : Barometric ls cs g ms b) {m : Measurement} {l : String} {o : Option Level} (ho : BySignals ls cs (ms ++ [m]) o)
    (hl : l = nameOf o) (hex : ∃ o, FloorUsed ls cs g ms o) (hm : GoodMap ls) :
    let r := LevelEst.checkLevelChange b l (lastSensor g.sensor (ms ++ [m]))
    Barometric ls cs g (ms ++ [m]) r.2 ∧ ∃ o', FloorUsed ls cs g (ms ++ [m]) o' ∧ r.1 = nameOf o' := by
  intro r
  obtain ⟨calls, rfl, h2, h3, h4⟩ := hb
  set c : String × SensorMeasurement := (l, lastSensor g.sensor (ms ++ [m])) with hc
  have hr1 : r.1 = LevelEst.baroOut calls c := rfl
  have hr2 : r.2 = LevelEst.runBaro (calls ++ [c]) := by rw [LevelEst.runBaro_snoc]
  have hpr : LevelEst.pressures (calls ++ [c]) = counted g (ms ++ [m]) := by
    by_cases hne : calls = []
    · subst hne
      have : ms = [] := List.length_eq_zero_iff.mp h2.symm
      subst this
      rw [counted_small g _ (by simp)]
      rfl
    · have hms : ms ≠ [] := by
        intro h; rw [h] at h2; exact hne (List.length_eq_zero_iff.mp h2)
      rw [LevelEst.pressures_snoc _ _ hne, counted_snoc g ms m hms, h3, pressureSeen_eq]
      congr 1
      split_ifs <;> rfl
  -- the answer
  have key : ∃ o', FloorUsed ls cs g (ms ++ [m]) o' ∧ LevelEst.baroOut calls c = nameOf o' := by
    cases calls using List.reverseRecOn with
    | nil =>
      have : ms = [] := List.length_eq_zero_iff.mp h2.symm
      subst this
      exact ⟨o, (used_free (free_small g _ (by simp)) o).mpr ho, hl⟩
    | append_singleton past c' _ =>
      by_cases hne : past = []
      · subst hne
        have hfree : Free g (ms ++ [m]) := by
          left
          rw [← hpr]
          have : (LevelEst.pressures ([] ++ [c'] ++ [c])).length ≤ 1 := by
            simp only [LevelEst.pressures]
            refine (List.length_filterMap_le _ _).trans ?_
            simp
          omega
        exact ⟨o, (used_free hfree o).mpr ho, (LevelEst.second_call c' c).trans hl⟩
      · obtain ⟨k1, k2⟩ := LevelEst.C26_hold past hne c' c
        have e : past ++ [c', c] = past ++ [c'] ++ [c] := by simp
        rw [e, hpr] at k1 k2
        by_cases hfree : Free g (ms ++ [m])
        · refine ⟨o, (used_free hfree o).mpr ho, ?_⟩
          rcases hfree with hf | hf
          · exact (k1 hf).trans hl
          · by_cases hlen : (counted g (ms ++ [m])).length < 201
            · exact (k1 hlen).trans hl
            · exact ((k2 (by omega)).1 hf).trans hl
        · obtain ⟨o', ho'⟩ := hex
          refine ⟨o', (used_held hfree o').mpr ho', ?_⟩
          unfold Free at hfree
          push Not at hfree
          exact ((k2 hfree.1).2 hfree.2).trans (h4 past c' rfl o' ho')
  refine ⟨⟨calls ++ [c], hr2, by simp [h2], hpr, ?_⟩, ?_⟩
  · intro past c' e o1 ho1
    obtain ⟨e1, e2⟩ := List.append_inj' e rfl
    cases e2
    obtain ⟨o', ho', hk⟩ := key
    rw [← e1, hk, used_unique hm ho' ho1]
  · rw [hr1]; exact key

end Verif.Pressure
