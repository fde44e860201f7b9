import Verif.JsonIn.Lemmas

/-!
# The table of settings against the chain of keys of the reader
-/

namespace Verif.JsonIn

open Verif.Knn (Result)

/-- The setting has the same value in both. -/
def Field.Same (s s' : CommonSettings) : Field → Prop
  | .flag _ _ get => get s' = get s
  | .number _ _ get => get s' = get s
  | .limit _ _ get => get s' = get s
  | .count _ _ get => get s' = get s
  | .integer _ _ get => get s' = get s
  | .algorithm _ _ get => get s' = get s
  | .measurementType _ _ get => get s' = get s
  | .signals _ _ get => get s' = get s

theorem Field.Same.refl (f : Field) (s : CommonSettings) : f.Same s s := by cases f <;> rfl

theorem Field.Same.trans {f : Field} {a b c : CommonSettings} (h : f.Same a b) (h' : f.Same b c) : f.Same a c := by
  cases f <;> exact Eq.trans h' h

theorem Field.Same.isDefault {f : Field} {a b : CommonSettings} (h : f.Same a b) (h' : f.IsDefault a) :
    f.IsDefault b := by
  cases f <;> exact Eq.trans h h'

theorem Field.Same.isSetTo {f : Field} {j : Json} {a b : CommonSettings} (h : f.Same a b) (h' : f.IsSetTo j a) :
    f.IsSetTo j b := by
  cases f <;> simp only [Field.Same] at h <;> simp only [Field.IsSetTo] at h' ⊢ <;> rw [h] <;> exact h'

theorem getAlgorithm_ne (j : Json) : getAlgorithm j ≠ .throws ∧ getAlgorithm j ≠ .undefined := by
  obtain ⟨b, hb⟩ := enumOfString_ok UseAlgorithm.PF_PDR [(.PF_PDR, "PF_PDR"), (.PF_NOPDR, "PF_NOPDR"),
    (.ZONES, "ZONES"), (.GRAPH, "GRAPH"), (.KNN, "KNN")] j
  unfold getAlgorithm
  rw [hb]; simp

theorem getMeasurementType_ne (j : Json) :
    getMeasurementType j ≠ .throws ∧ getMeasurementType j ≠ .undefined := by
  obtain ⟨b, hb⟩ := enumOfString_ok MeasurementType.RSSI [(.RSSI, "rssi"), (.DISTANCE_V1, "distance_v1"),
    (.DISTANCE_V2, "distance_v2")] j
  unfold getMeasurementType
  rw [hb]; simp

theorem getSignals_ne (j : Json) : getSignals j ≠ .throws ∧ getSignals j ≠ .undefined := by
  obtain ⟨b, hb⟩ := enumOfString_ok SignalsToUse.BLE [(.BLE, "ble"), (.WIFI, "wifi"), (.BOTH, "both")] j
  unfold getSignals
  rw [hb]; simp

theorem getUnsigned_ne (j : Json) (hj : ∀ x, j ≠ .real x) : getUnsigned j ≠ .undefined := by
  cases j with
  | real x => exact absurd rfl (hj x)
  | _ => simp [getUnsigned]

theorem getLongLong_ne (j : Json) (hj : ∀ x, j ≠ .real x) : getLongLong j ≠ .undefined := by
  cases j with
  | real x => exact absurd rfl (hj x)
  | _ => simp [getLongLong, getSigned]

/-- What one entry of the chain does to the settings of the table. -/
def EntrySpec (e : String × (Json → CommonSettings → Result CommonSettings)) : Prop :=
  (∀ j s s', e.2 j s = .ok s' → ∀ f ∈ settingsTable, (f.key = e.1 → f.IsSetTo j s') ∧ (f.key ≠ e.1 → f.Same s s'))

set_option maxRecDepth 4000 in
set_option maxHeartbeats 2000000 in
theorem setters_spec : ∀ e ∈ setters, EntrySpec e := by
  unfold setters
  repeat' (first | exact List.forall_mem_nil _ | refine List.forall_mem_cons.mpr ⟨?_, ?_⟩)
  all_goals
    intro j s s' h
    obtain ⟨v, hv, rfl⟩ := map_eq_ok.mp h
    simp only [settingsTable, List.forall_mem_cons, Field.key, Field.IsSetTo, Field.Same, String.reduceEq, ne_eq,
      not_true_eq_false, not_false_eq_true, forall_const, IsEmpty.forall_iff, and_true, true_and, List.not_mem_nil,
      implies_true]
    first
    | exact getBool_eq_ok.mp hv
    | exact getDouble_eq_ok.mp hv
    | exact getUnsigned_spec hv
    | exact getLongLong_spec hv
    | exact ⟨v, getDouble_eq_ok.mp hv, rfl⟩
    | exact getAlgorithm_spec hv
    | exact getMeasurementType_spec hv
    | exact getSignals_spec hv

set_option maxRecDepth 4000 in
set_option maxHeartbeats 2000000 in
theorem setters_throws : ∀ e ∈ setters, ∀ j s, e.2 j s = .throws ↔
    ∃ f ∈ settingsTable, f.key = e.1 ∧ ¬ f.Accepts j := by
  unfold setters
  repeat' (first | exact List.forall_mem_nil _ | refine List.forall_mem_cons.mpr ⟨?_, ?_⟩)
  all_goals
    intro j s
    rw [map_eq_throws]
    simp only [settingsTable, List.exists_mem_cons_iff, Field.key, Field.Accepts, String.reduceEq, false_and, or_false,
      false_or, true_and, List.not_mem_nil, exists_false, not_true_eq_false]
    first
    | exact getBool_eq_throws
    | exact getDouble_eq_throws
    | exact getUnsigned_eq_throws
    | exact getSigned_eq_throws
    | exact iff_false_intro (getAlgorithm_ne j).1
    | exact iff_false_intro (getMeasurementType_ne j).1
    | exact iff_false_intro (getSignals_ne j).1

theorem setters_defined : ∀ e ∈ setters, ∀ j s, (∀ x, j ≠ .real x) → e.2 j s ≠ .undefined := by
  unfold setters
  repeat' (first | exact List.forall_mem_nil _ | refine List.forall_mem_cons.mpr ⟨?_, ?_⟩)
  all_goals
    intro j s hj h
    rw [map_eq_undefined] at h
    first
    | exact getBool_ne_undefined j h
    | exact getDouble_ne_undefined j h
    | exact (getAlgorithm_ne j).2 h
    | exact (getMeasurementType_ne j).2 h
    | exact (getSignals_ne j).2 h
    | exact getUnsigned_ne j hj h
    | exact getLongLong_ne j hj h

set_option maxRecDepth 4000 in
set_option maxHeartbeats 2000000 in
theorem key_mem (f : Field) (hf : f ∈ settingsTable) : ∃ e ∈ setters, e.1 = f.key := by
  revert f
  unfold settingsTable
  repeat' (first | exact List.forall_mem_nil _ | refine List.forall_mem_cons.mpr ⟨?_, ?_⟩)
  all_goals
    simp only [setters, List.exists_mem_cons_iff, Field.key, String.reduceEq, false_or, List.not_mem_nil, true_or,
      or_true]

theorem table_default (f : Field) (hf : f ∈ settingsTable) : f.IsDefault {} := by
  revert f
  unfold settingsTable
  repeat' (first | exact List.forall_mem_nil _ | refine List.forall_mem_cons.mpr ⟨?_, ?_⟩)
  all_goals rfl

theorem setters_find (key : String) :
    (∃ e ∈ setters, e.1 = key ∧ setters.find? (fun e => e.1 = key) = some e) ∨
      (∀ e ∈ setters, e.1 ≠ key) ∧ setters.find? (fun e => e.1 = key) = none := by
  cases h : setters.find? (fun e => e.1 = key) with
  | some e =>
    refine .inl ⟨e, List.mem_of_find?_eq_some h, ?_, rfl⟩
    simpa using List.find?_some h
  | none =>
    refine .inr ⟨fun e he => ?_, rfl⟩
    simpa using List.find?_eq_none.mp h e he

theorem setCommon_ok {key : String} {j : Json} {s s' : CommonSettings} (h : setCommon key j s = .ok s')
    (f : Field) (hf : f ∈ settingsTable) : (f.key = key → f.IsSetTo j s') ∧ (f.key ≠ key → f.Same s s') := by
  unfold setCommon at h
  rcases setters_find key with ⟨e, he, rfl, h'⟩ | ⟨hn, h'⟩
  · rw [h'] at h
    exact setters_spec e he j s s' h f hf
  · rw [h'] at h
    simp only [Knn.Result.ok.injEq] at h
    subst h
    refine ⟨fun hk => ?_, fun _ => Field.Same.refl f s⟩
    obtain ⟨e, he, h1⟩ := key_mem f hf
    exact absurd (h1.trans hk) (hn e he)

theorem setCommon_throws {key : String} {j : Json} {s : CommonSettings} :
    setCommon key j s = .throws ↔ ∃ f ∈ settingsTable, f.key = key ∧ ¬ f.Accepts j := by
  unfold setCommon
  rcases setters_find key with ⟨e, he, rfl, h'⟩ | ⟨hn, h'⟩
  · rw [h']
    exact setters_throws e he j s
  · rw [h']
    simp only [reduceCtorEq, false_iff, not_exists, not_and]
    intro f hf hk
    obtain ⟨e, he, h1⟩ := key_mem f hf
    exact absurd (h1.trans hk) (hn e he)

theorem setCommon_defined {key : String} {j : Json} {s : CommonSettings} (hj : ∀ x, j ≠ .real x) :
    setCommon key j s ≠ .undefined := by
  unfold setCommon
  rcases setters_find key with ⟨e, he, rfl, h'⟩ | ⟨hn, h'⟩
  · rw [h']
    exact setters_defined e he j s hj
  · rw [h']; simp

theorem setCommon_unknown {key : String} {j : Json} {s : CommonSettings} (hk : ∀ e ∈ setters, e.1 ≠ key) :
    setCommon key j s = .ok s := by
  unfold setCommon
  rcases setters_find key with ⟨e, he, rfl, h'⟩ | ⟨hn, h'⟩
  · exact absurd rfl (hk e he)
  · rw [h']

set_option maxRecDepth 4000 in
set_option maxHeartbeats 2000000 in
theorem mem_key (e) (he : e ∈ setters) : ∃ f ∈ settingsTable, f.key = e.1 := by
  revert e
  unfold setters
  repeat' (first | exact List.forall_mem_nil _ | refine List.forall_mem_cons.mpr ⟨?_, ?_⟩)
  all_goals
    simp only [settingsTable, List.exists_mem_cons_iff, Field.key, String.reduceEq, false_or, List.not_mem_nil, true_or,
      or_true]

theorem setters_altitude : ∀ e ∈ setters, ∀ j s s', e.2 j s = .ok s' → s'.useAltitude = s.useAltitude := by
  unfold setters
  repeat' (first | exact List.forall_mem_nil _ | refine List.forall_mem_cons.mpr ⟨?_, ?_⟩)
  all_goals
    intro j s s' h
    obtain ⟨v, hv, rfl⟩ := map_eq_ok.mp h
    rfl

end Verif.JsonIn
