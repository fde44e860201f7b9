import Verif.Estim.Model
import Verif.StdMap
import Mathlib.Tactic.Linarith
import Mathlib.Tactic.FieldSimp
import Mathlib.Tactic.NormNum

/-!
# C33-C35: zone estimator, sigma filter, outdoor estimator
-/

namespace Verif.Estim

open Verif.Levels
open Verif.Geo (XYPoint GeoPoint)

/-! ## C33 -/

theorem strongest_spec (ms : List RadioData) (m : RadioData) (h : strongest ms = some m) :
    ∃ before after, ms = before ++ m :: after ∧ (∀ u ∈ before, u.rssi < m.rssi) ∧ ∀ u ∈ after, u.rssi ≤ m.rssi := by
  cases ms with
  | nil => simp [strongest] at h
  | cons a l =>
    simp only [strongest, Option.some.injEq] at h
    subst h
    induction l using List.reverseRecOn with
    | nil => exact ⟨[], [], rfl, by simp, by simp⟩
    | append_singleton l x ih =>
      rw [List.foldl_append]
      simp only [List.foldl_cons, List.foldl_nil]
      obtain ⟨bef, aft, h1, h2, h3⟩ := ih
      set b := l.foldl (fun best u => if best.rssi < u.rssi then u else best) a
      split_ifs with hlt
      · refine ⟨a :: l, [], by simp, ?_, by simp⟩
        intro u hu
        rw [h1] at hu
        rcases List.mem_append.mp hu with hu | hu
        · exact (h2 u hu).trans hlt
        · rcases List.mem_cons.mp hu with rfl | hu
          · exact hlt
          · exact lt_of_le_of_lt (h3 u hu) hlt
      · refine ⟨bef, aft ++ [x], ?_, h2, ?_⟩
        · rw [← List.cons_append, h1]; simp
        · intro u hu
          rcases List.mem_append.mp hu with hu | hu
          · exact h3 u hu
          · rw [List.mem_singleton] at hu; subst hu; exact not_lt.mp hlt

/-- **C33.** With no measurement of a transmitter of the level the status is NO_SOLUTION and the
position empty. Otherwise the status is OK and the position is that of the first measured transmitter
of the level with maximal rssi, with the level and time stamp; for a slope other than 0 the precision is above one metre. -/
theorem C33_zone (A B : List (String × ℝ)) (level : Level) (ts : Int) (msr : List RadioData) :
    let known := msr.filter (fun m => (level.transmitter m.id).isSome)
    (known = [] → zonePosition A B level ts msr = (.NO_SOLUTION, Position.default)) ∧
    (known ≠ [] → ∃ before m after t prec, known = before ++ m :: after ∧
      (∀ u ∈ before, u.rssi < m.rssi) ∧ (∀ u ∈ after, u.rssi ≤ m.rssi) ∧
      level.transmitter m.id = some t ∧
      zonePosition A B level ts msr = (.OK, ⟨t.point.x, t.point.y, level.id, prec, ts, false, .INDOOR, 0⟩) ∧
      ∀ a b, StdMap.find? A level.id = some a → StdMap.find? B level.id = some b → b ≠ 0 →
        1 < prec ∧ prec = Real.exp ((a - m.rssi) / (2 * b)) + 1) := by
  intro known
  have hk : getLevelRadioMeasurements RadioData.id level msr = known := rfl
  constructor
  · intro h
    unfold zonePosition
    rw [hk, h]
    simp [strongest]
  · intro h
    have hne : msr ≠ [] := by rintro rfl; exact h rfl
    obtain ⟨m, hm⟩ : ∃ m, strongest known = some m := by
      cases hkn : known with
      | nil => exact absurd hkn h
      | cons a l => exact ⟨_, rfl⟩
    obtain ⟨bef, aft, h1, h2, h3⟩ := strongest_spec known m hm
    have hmem : m ∈ known := by rw [h1]; simp
    have hsome := (List.mem_filter.mp hmem).2
    obtain ⟨t, ht⟩ := Option.isSome_iff_exists.mp hsome
    refine ⟨bef, m, aft, t,
      Real.sqrt (Real.exp (((StdMap.find? A level.id).getD 0 - m.rssi) ÷ (StdMap.find? B level.id).getD 0)) + 1,
      h1, h2, h3, ht, ?_, ?_⟩
    · unfold zonePosition
      rw [if_neg (by simpa using hne), hk, hm]
      have hc : level.containsTransmitter m.id = true := hsome
      simp only [hc, if_true, ht]
    · intro a b ha hb hb0
      rw [ha, hb]
      simp only [Option.getD_some]
      rw [divide_eq hb0]
      refine ⟨by linarith [Real.sqrt_pos.mpr (Real.exp_pos ((a - m.rssi) / b))], ?_⟩
      rw [show (a - m.rssi) / b = (a - m.rssi) / (2 * b) + (a - m.rssi) / (2 * b) by field_simp; ring, Real.exp_add,
        Real.sqrt_mul_self (Real.exp_pos _).le]

/-- **C33.** The constructor throws iff a level has no settings; otherwise every level gets its own
path loss parameters. -/
theorem C33_params (settings : List (String × LevelSettings)) (c : LevelCollector) :
    (zoneParams settings c = none ↔ ∃ l ∈ c.levels, StdMap.find? settings l.id = none) ∧
    ∀ A B, zoneParams settings c = some (A, B) → ∀ l ∈ c.levels, ∃ s, StdMap.find? settings l.id = some s ∧
      StdMap.find? A l.id = some s.normalModeA ∧ StdMap.find? B l.id = some s.normalModeB := by
  unfold zoneParams
  induction c.levels using List.reverseRecOn with
  | nil => simp
  | append_singleton ls l ih =>
    rw [List.foldlM_append]
    obtain ⟨h1, h2⟩ := ih
    generalize hfold : ls.foldlM (fun (ab : List (String × ℝ) × List (String × ℝ)) l =>
      match StdMap.find? settings l.id with
      | none => none
      | some s => some (StdMap.set ab.1 l.id s.normalModeA, StdMap.set ab.2 l.id s.normalModeB)) ([], []) = r at h1 h2 ⊢
    cases r with
    | none =>
      obtain ⟨k, hk, hkn⟩ := h1.mp rfl
      simp only [Option.bind_eq_bind, Option.bind_none, true_iff]
      exact ⟨⟨k, by simp [hk], hkn⟩, by simp⟩
    | some ab =>
      obtain ⟨A, B⟩ := ab
      have hall : ∀ k ∈ ls, StdMap.find? settings k.id ≠ none := by
        intro k hk hn
        have := h1.mpr ⟨k, hk, hn⟩
        simp at this
      simp only [Option.bind_eq_bind, Option.bind_some, List.foldlM_cons, List.foldlM_nil]
      cases hs : StdMap.find? settings l.id with
      | none =>
        simp only [Option.bind_none, true_iff]
        exact ⟨⟨l, by simp, hs⟩, by simp⟩
      | some s =>
        simp only [Option.bind_some]
        refine ⟨?_, ?_⟩
        · simp only [Option.pure_def, reduceCtorEq, false_iff, List.mem_append, List.mem_singleton]
          rintro ⟨k, hk | rfl, hn⟩
          · exact hall k hk hn
          · rw [hs] at hn; simp at hn
        · intro A' B' h k hk
          simp only [Option.pure_def, Option.some.injEq, Prod.mk.injEq] at h
          obtain ⟨rfl, rfl⟩ := h
          by_cases hkl : l.id = k.id
          · refine ⟨s, by rw [← hkl, hs], ?_, ?_⟩ <;> rw [StdMap.find?_set] <;> simp [hkl]
          · have hk' : k ∈ ls := by
              rcases List.mem_append.mp hk with h | h
              · exact h
              · rw [List.mem_singleton] at h; subst h; exact absurd rfl hkl
            obtain ⟨s', a1, a2, a3⟩ := h2 A B rfl k hk'
            refine ⟨s', a1, ?_, ?_⟩ <;> rw [StdMap.find?_set] <;> simp [hkl, a2, a3]

/-! ## C34 -/

/-- The last `n` elements. -/
def lastN {α : Type} (n : ℕ) (l : List α) : List α := l.drop (l.length - n)

/-- The mean of a list of numbers. -/
noncomputable def mean (l : List ℝ) : ℝ := l.sum / l.length

/-- The (population) standard deviation of a list of numbers. -/
noncomputable def stddev (l : List ℝ) : ℝ := Real.sqrt (mean (l.map (fun v => (v - mean l) ^ 2)))

/-- The value lies within three standard deviations plus `delta` of the mean. -/
def Within3Sigma (l : List ℝ) (delta v : ℝ) : Prop := |mean l - v| ≤ 3 * stddev l + delta

/-- A use of the filter. -/
inductive SigmaOp where
  | add (p : XYPoint)
  | clear

/-- The buffer after a sequence of uses; `none`: undefined behaviour happened. -/
noncomputable def sigmaRun (window : ℕ) (delta : ℝ) (ops : List SigmaOp) : Option (List XYPoint) :=
  ops.foldlM (fun buf op => match op with
    | .add p => (sigmaAdd window delta buf p).map Prod.snd
    | .clear => some []) []

/-- The points added since the last clear. -/
def sinceClear (ops : List SigmaOp) : List XYPoint :=
  ops.foldl (fun l op => match op with
    | .add p => l ++ [p]
    | .clear => []) []

theorem lastN_snoc {α : Type} (n : ℕ) (l : List α) (a : α) (hn : 0 < n) :
    lastN n (l ++ [a]) = if (lastN n l).length = n then (lastN n l).tail ++ [a] else lastN n l ++ [a] := by
  unfold lastN
  rw [List.length_append, List.length_drop, List.length_singleton]
  by_cases h : n ≤ l.length
  · rw [if_pos (by omega), List.drop_append_of_le_length (by omega), List.tail_drop]
    congr 2; omega
  · rw [if_neg (by omega), List.drop_append_of_le_length (by omega)]
    congr 2; omega

theorem sigmaAdd_eq (window : ℕ) (hw : 0 < window) (delta : ℝ) (hist : List XYPoint) (p : XYPoint) :
    ∃ b, sigmaAdd window delta (lastN window hist) p = some (b, lastN window (hist ++ [p])) ∧
      (b = true ↔ window ≤ hist.length ∧ Within3Sigma ((lastN window hist).map XYPoint.x) delta p.x ∧
        Within3Sigma ((lastN window hist).map XYPoint.y) delta p.y) := by
  have hlen : (lastN window hist).length = min window hist.length := by
    unfold lastN; rw [List.length_drop]; omega
  have hsum : ∀ (g : XYPoint → ℝ) (l : List XYPoint) (a : ℝ), l.foldl (fun s q => s + g q) a = a + (l.map g).sum := by
    intro g l
    induction l with
    | nil => simp
    | cons x l ih => intro a; rw [List.foldl_cons, ih, List.map_cons, List.sum_cons]; ring
  rw [lastN_snoc _ _ _ hw]
  by_cases h : (lastN window hist).length = window
  · unfold sigmaAdd
    rw [if_pos h, if_pos h]
    cases hb : lastN window hist with
    | nil => rw [hb] at h; simp at h; omega
    | cons q rest =>
      refine ⟨sigmaAccepts window delta (q :: rest) p, rfl, ?_⟩
      rw [← hb]
      have hwl : window ≤ hist.length := by omega
      have hl : (((lastN window hist).length : ℕ) : ℝ) = (window : ℝ) := by rw [h]
      have hw' : (0 : ℝ) < window := by exact_mod_cast hw
      have hr : ∀ l : List ℝ, (∀ x ∈ l, 0 ≤ x) → root (l.sum / (window : ℝ)) = Real.sqrt (l.sum / window) :=
        fun l hl => root_eq (div_nonneg (List.sum_nonneg hl) hw'.le)
      unfold sigmaAccepts Within3Sigma stddev mean
      simp only [divide_pos hw', hsum, decide_eq_true_eq, hwl, true_and, List.map_map, List.length_map, Function.comp_def, zero_add, hl, pow_two]
      rw [hr _ (by simp [mul_self_nonneg]), hr _ (by simp [mul_self_nonneg])]
  · unfold sigmaAdd
    rw [if_neg h, if_neg h]
    refine ⟨false, rfl, ?_⟩
    simp only [Bool.false_eq_true, false_iff]
    rintro ⟨h1, -⟩
    omega

/-- **C34.** For a positive window every history is well defined and leaves the last `window` points
added since the last clear in the buffer, so at most `window` of them. -/
theorem C34_buffer (window : ℕ) (hw : 0 < window) (delta : ℝ) (ops : List SigmaOp) :
    sigmaRun window delta ops = some (lastN window (sinceClear ops)) ∧
    (lastN window (sinceClear ops)).length ≤ window := by
  constructor
  · unfold sigmaRun sinceClear
    induction ops using List.reverseRecOn with
    | nil => simp [lastN]
    | append_singleton ops op ih =>
      rw [List.foldlM_append, ih, List.foldl_append]
      simp only [Option.bind_eq_bind, Option.bind_some, List.foldlM_cons, List.foldlM_nil, List.foldl_cons, List.foldl_nil]
      cases op with
      | clear => simp [lastN]
      | add p =>
        obtain ⟨b, h, -⟩ := sigmaAdd_eq window hw delta (ops.foldl (fun l op => match op with
          | .add p => l ++ [p]
          | .clear => []) []) p
        simp only [h, Option.map_some, Option.bind_some]
        rfl
  · unfold lastN; rw [List.length_drop]; omega

/-- **C34.** After any history a fix is accepted iff at least `window` fixes were added since the last
clear and it lies, on both axes, within three standard deviations plus `delta` of the mean of the last
`window` of them. -/
theorem C34_accept (window : ℕ) (hw : 0 < window) (delta : ℝ) (ops : List SigmaOp) (p : XYPoint) :
    ∃ buf b buf', sigmaRun window delta ops = some buf ∧ sigmaAdd window delta buf p = some (b, buf') ∧
      (b = true ↔ window ≤ (sinceClear ops).length ∧
        Within3Sigma ((lastN window (sinceClear ops)).map XYPoint.x) delta p.x ∧
        Within3Sigma ((lastN window (sinceClear ops)).map XYPoint.y) delta p.y) := by
  obtain ⟨b, h, hb⟩ := sigmaAdd_eq window hw delta (sinceClear ops) p
  exact ⟨_, b, _, (C34_buffer window hw delta ops).1, h, hb⟩

/-- **C34 (finding).** With a zero window the first fix is undefined behaviour. -/
theorem C34_zero_window (delta : ℝ) (p : XYPoint) : sigmaRun 0 delta [.add p] = none := rfl

/-- A fix equal to the single one before it is accepted, one ten metres off is not. -/
example : (sigmaAdd 1 0 [⟨5, 5⟩] ⟨5, 5⟩).map Prod.fst = some true ∧ (sigmaAdd 1 0 [⟨5, 5⟩] ⟨15, 5⟩).map Prod.fst = some false := by
  constructor
  · obtain ⟨b, h, hb⟩ := sigmaAdd_eq 1 (by norm_num) 0 [⟨5, 5⟩] ⟨5, 5⟩
    have : b = true := hb.mpr (by simp [Within3Sigma, stddev, mean, lastN])
    subst this
    exact congrArg (Option.map Prod.fst) h
  · obtain ⟨b, h, hb⟩ := sigmaAdd_eq 1 (by norm_num) 0 [⟨5, 5⟩] ⟨15, 5⟩
    have : ¬ b = true := by
      rw [hb]
      simp [Within3Sigma, stddev, mean, lastN]
      norm_num
    have hf : b = false := by simpa using this
    subst hf
    exact congrArg (Option.map Prod.fst) h

/-! ## C35 -/

/-- One call of the outdoor estimator. -/
structure Call where
  ts : Int
  sensor : SensorMeasurement
  nmea : NmeaMeasurement
  indoor : Bool

/-- The state after a sequence of calls; `none`: undefined behaviour happened. -/
noncomputable def outdoorRun (s : CommonSettings) (c : LevelCollector) (calls : List Call) : Option OutdoorState :=
  calls.foldlM (fun st k => (outdoorPosition s c st k.ts k.sensor k.nmea k.indoor).map Prod.snd) outdoorInit

/-- The local point of the fix of a call on a level. -/
noncomputable def fixOn (k : Call) (l : Level) : XYPoint :=
  Geo.gpsToLocal ⟨k.sensor.data.values.x, k.sensor.data.values.y⟩ l.bindingPoint

/-- The level is the first one whose bounding box covers the fix of the call (or just the first one,
when positions outside the map are allowed). -/
def FirstCovering (s : CommonSettings) (c : LevelCollector) (k : Call) (l : Level) : Prop :=
  let ok := fun l' : Level => Box.Covers l'.geometry.boundingBox (fixOn k l') ∨ s.useGpsOutsideMap = true
  ∃ before after, c.levels = before ++ l :: after ∧ ok l ∧ ∀ l' ∈ before, ¬ ok l'

/-- The position reported for the fix of a call on a level. -/
noncomputable def fixPosition (s : CommonSettings) (k : Call) (l : Level) : Position :=
  ⟨(fixOn k l).x, (fixOn k l).y, l.id, max k.sensor.data.values.z s.minGpsDeviation, k.ts, false, .GNSS, 0⟩

/-- Enough satellites are announced (or none at all). -/
def SatellitesOk (s : CommonSettings) (k : Call) : Prop :=
  k.nmea.data.sentenceNumber = 1 → k.nmea.data.satellitesNumber ≠ 0 → (s.minNumSats : Int) ≤ k.nmea.data.satellitesNumber

theorem satellites_iff (s : CommonSettings) (k : Call) :
    (extractNumberOfSatellites k.nmea ≠ 0 ∧ extractNumberOfSatellites k.nmea < (s.minNumSats : Int)) ↔ ¬ SatellitesOk s k := by
  unfold extractNumberOfSatellites SatellitesOk
  by_cases h1 : k.nmea.data.sentenceNumber = 1
  · by_cases h2 : k.nmea.data.satellitesNumber = 0
    · simp [h1, h2]
    · simp [h1, h2]
  · simp [h1]

/-- The loop over the levels in terms of the first covering level. -/
theorem outdoorLevels_spec (s : CommonSettings) (c : LevelCollector) (st : OutdoorState) (k : Call) :
    let g : GpsPosition := ⟨k.sensor.data.values.x, k.sensor.data.values.y, max k.sensor.data.values.z s.minGpsDeviation, k.ts⟩
    let r := outdoorLevels s st g (extractNumberOfSatellites k.nmea) c.levels
    ((∀ l, ¬ FirstCovering s c k l) ∧ r = some (Position.default, st)) ∨
    ∃ l, FirstCovering s c k l ∧
      let filtered := s.useGpsSigmaFilter = true ∧ k.ts ≠ st.last.ts
      (filtered ∧ sigmaAdd s.sigmaFilterWindow s.sigmaFilterDelta st.buf (fixOn k l) = none ∧ r = none) ∨
      ∃ valid buf, (¬ filtered → valid = true ∧ buf = st.buf) ∧
        (filtered → sigmaAdd s.sigmaFilterWindow s.sigmaFilterDelta st.buf (fixOn k l) = some (valid, buf)) ∧
        ((valid = true ∧ SatellitesOk s k → r = some (fixPosition s k l, ⟨fixPosition s k l, buf⟩)) ∧
         (¬ (valid = true ∧ SatellitesOk s k) → r = some (Position.default, ⟨st.last, buf⟩))) := by
  classical
  intro g r
  have hgen : ∀ (bef ls : List Level), c.levels = bef ++ ls →
      (∀ l' ∈ bef, ¬ (Box.Covers l'.geometry.boundingBox (fixOn k l') ∨ s.useGpsOutsideMap = true)) →
      ((∀ l' ∈ ls, ¬ (Box.Covers l'.geometry.boundingBox (fixOn k l') ∨ s.useGpsOutsideMap = true)) ∧
        outdoorLevels s st g (extractNumberOfSatellites k.nmea) ls = some (Position.default, st)) ∨
      ∃ l, FirstCovering s c k l ∧
      let filtered := s.useGpsSigmaFilter = true ∧ k.ts ≠ st.last.ts
      (filtered ∧ sigmaAdd s.sigmaFilterWindow s.sigmaFilterDelta st.buf (fixOn k l) = none ∧
        outdoorLevels s st g (extractNumberOfSatellites k.nmea) ls = none) ∨
      ∃ valid buf, (¬ filtered → valid = true ∧ buf = st.buf) ∧
        (filtered → sigmaAdd s.sigmaFilterWindow s.sigmaFilterDelta st.buf (fixOn k l) = some (valid, buf)) ∧
        ((valid = true ∧ SatellitesOk s k →
            outdoorLevels s st g (extractNumberOfSatellites k.nmea) ls = some (fixPosition s k l, ⟨fixPosition s k l, buf⟩)) ∧
         (¬ (valid = true ∧ SatellitesOk s k) →
            outdoorLevels s st g (extractNumberOfSatellites k.nmea) ls = some (Position.default, ⟨st.last, buf⟩))) := by
    intro bef ls
    induction ls generalizing bef with
    | nil => intro _ _; left; exact ⟨by simp, rfl⟩
    | cons l ls ih =>
      intro hc hbef
      by_cases hok : Box.Covers l.geometry.boundingBox (fixOn k l) ∨ s.useGpsOutsideMap = true
      · right
        refine ⟨l, ⟨bef, ls, hc, hok, hbef⟩, ?_⟩
        have hfin : ∀ valid buf, (if (!valid || (decide (extractNumberOfSatellites k.nmea ≠ 0) &&
              decide (extractNumberOfSatellites k.nmea < (s.minNumSats : Int)))) = true
              then some (Position.default, ({ st with buf := buf } : OutdoorState))
              else some (fixPosition s k l, ⟨fixPosition s k l, buf⟩)) =
            if valid = true ∧ SatellitesOk s k then some (fixPosition s k l, ⟨fixPosition s k l, buf⟩)
              else some (Position.default, ⟨st.last, buf⟩) := by
          intro valid buf
          have := satellites_iff s k
          have hcond : (!valid || (decide (extractNumberOfSatellites k.nmea ≠ 0) &&
              decide (extractNumberOfSatellites k.nmea < (s.minNumSats : Int)))) = true ↔ ¬ (valid = true ∧ SatellitesOk s k) := by
            cases valid with
            | false => simp
            | true =>
              simp only [Bool.not_true, Bool.false_or, Bool.and_eq_true, decide_eq_true_eq, true_and]
              exact this
          by_cases h : valid = true ∧ SatellitesOk s k
          · rw [if_pos h, if_neg (fun h' => hcond.mp h' h)]
          · rw [if_neg h, if_pos (hcond.mpr h)]
        have hr : outdoorLevels s st g (extractNumberOfSatellites k.nmea) (l :: ls) =
            match (if k.ts ≠ st.last.ts then
                if s.useGpsSigmaFilter then sigmaAdd s.sigmaFilterWindow s.sigmaFilterDelta st.buf (fixOn k l)
                else some (true, st.buf)
              else some (true, st.buf)) with
            | none => none
            | some (valid, buf) => if valid = true ∧ SatellitesOk s k then some (fixPosition s k l, ⟨fixPosition s k l, buf⟩)
              else some (Position.default, ⟨st.last, buf⟩) := by
          rw [outdoorLevels]
          dsimp only
          rw [if_pos (by exact hok)]
          split
          · next h => 
            have h' : (if k.ts ≠ st.last.ts then
                if s.useGpsSigmaFilter then sigmaAdd s.sigmaFilterWindow s.sigmaFilterDelta st.buf (fixOn k l)
                else some (true, st.buf)
              else some (true, st.buf)) = none := h
            rw [h']
          · next valid buf h =>
            have h' : (if k.ts ≠ st.last.ts then
                if s.useGpsSigmaFilter then sigmaAdd s.sigmaFilterWindow s.sigmaFilterDelta st.buf (fixOn k l)
                else some (true, st.buf)
              else some (true, st.buf)) = some (valid, buf) := h
            rw [h']
            simp only
            rw [← hfin]
            rfl
        rw [hr]
        intro filtered
        by_cases hf : s.useGpsSigmaFilter = true ∧ k.ts ≠ st.last.ts
        · rw [if_pos hf.2, if_pos hf.1]
          cases hsig : sigmaAdd s.sigmaFilterWindow s.sigmaFilterDelta st.buf (fixOn k l) with
          | none => left; exact ⟨hf, rfl, rfl⟩
          | some vb =>
            obtain ⟨v, b⟩ := vb
            right
            refine ⟨v, b, fun h => absurd hf h, fun _ => rfl, ?_, ?_⟩
            · intro h; simp only; rw [if_pos h]
            · intro h; simp only; rw [if_neg h]
        · right
          have : (if k.ts ≠ st.last.ts then
                if s.useGpsSigmaFilter then sigmaAdd s.sigmaFilterWindow s.sigmaFilterDelta st.buf (fixOn k l)
                else some (true, st.buf)
              else some (true, st.buf)) = some (true, st.buf) := by
            by_cases h1 : k.ts = st.last.ts
            · simp [h1]
            · have h2 : ¬ s.useGpsSigmaFilter = true := fun h => hf ⟨h, h1⟩
              simp [h2]
          rw [this]
          refine ⟨true, st.buf, fun _ => ⟨rfl, rfl⟩, fun h => absurd h hf, ?_, ?_⟩
          · intro h; exact if_pos h
          · intro h; exact if_neg h
      · have hstep : outdoorLevels s st g (extractNumberOfSatellites k.nmea) (l :: ls) =
            outdoorLevels s st g (extractNumberOfSatellites k.nmea) ls := by
          rw [outdoorLevels]
          dsimp only
          rw [if_neg (by exact hok)]
        rw [hstep]
        rcases ih (bef ++ [l]) (by simp [hc]) (by
          intro l' hl'
          rcases List.mem_append.mp hl' with h | h
          · exact hbef l' h
          · rw [List.mem_singleton] at h; rw [h]; exact hok) with ⟨h1, h2⟩ | h
        · left
          refine ⟨?_, h2⟩
          intro l' hl'
          rcases List.mem_cons.mp hl' with rfl | h
          · exact hok
          · exact h1 l' h
        · right; exact h
  rcases hgen [] c.levels rfl (by simp) with ⟨h1, h2⟩ | h
  · left
    refine ⟨?_, h2⟩
    rintro l ⟨bef, aft, hc, hok, -⟩
    exact h1 l (by rw [hc]; simp) hok
  · right; exact h

/-- The call carries a fix. -/
def IsFix (k : Call) : Prop := k.sensor.data.type = .LOCATION

theorem outdoorPosition_fix (s : CommonSettings) (c : LevelCollector) (st : OutdoorState) (k : Call) (hf : IsFix k) :
    ∃ st1 : OutdoorState, st1.last = st.last ∧ (st1.buf = st.buf ∨ st1.buf = []) ∧
      outdoorPosition s c st k.ts k.sensor k.nmea k.indoor = outdoorLevels s st1
        ⟨k.sensor.data.values.x, k.sensor.data.values.y, max k.sensor.data.values.z s.minGpsDeviation, k.ts⟩
        (extractNumberOfSatellites k.nmea) c.levels := by
  have hg : extractGpsPosition s k.ts k.sensor =
      some ⟨k.sensor.data.values.x, k.sensor.data.values.y, max k.sensor.data.values.z s.minGpsDeviation, k.ts⟩ := if_pos hf
  unfold outdoorPosition
  rw [hg]
  refine ⟨_, ?_, ?_, rfl⟩
  · split_ifs <;> rfl
  · split_ifs
    · exact .inr rfl
    · exact .inl rfl

theorem outdoorPosition_nofix (s : CommonSettings) (c : LevelCollector) (st : OutdoorState) (k : Call) (hf : ¬ IsFix k) :
    ∃ st1 : OutdoorState, st1.last = st.last ∧ (st1.buf = st.buf ∨ st1.buf = []) ∧
      outdoorPosition s c st k.ts k.sensor k.nmea k.indoor =
        some (if ((k.ts - st.last.ts : Int) : ℝ) / 1000 > s.gpsValidTimeWindowSec then Position.default else st.last, st1) := by
  have hg : extractGpsPosition s k.ts k.sensor = none := if_neg hf
  unfold outdoorPosition
  rw [hg]
  dsimp only
  cases hi : k.indoor with
  | false =>
    refine ⟨st, rfl, .inl rfl, ?_⟩
    simp only [Bool.false_eq_true, or_false, if_false]
    split_ifs <;> rfl
  | true =>
    refine ⟨{ st with buf := [] }, rfl, .inr rfl, ?_⟩
    simp only [true_or, if_true]
    split_ifs <;> rfl

/-- The stored position is the initial one or was reported for the fix of some call. -/
def LastOk (s : CommonSettings) (c : LevelCollector) (calls : List Call) (p : Position) : Prop :=
  p = Position.default ∨ ∃ k ∈ calls, IsFix k ∧ ∃ l, FirstCovering s c k l ∧ SatellitesOk s k ∧ p = fixPosition s k l

theorem outdoor_step (s : CommonSettings) (c : LevelCollector) (st : OutdoorState) (k : Call) (out : Position) (st' : OutdoorState)
    (h : outdoorPosition s c st k.ts k.sensor k.nmea k.indoor = some (out, st')) :
    (¬ IsFix k → st'.last = st.last ∧
      (out = if ((k.ts - st.last.ts : Int) : ℝ) / 1000 > s.gpsValidTimeWindowSec then Position.default else st.last)) ∧
    (IsFix k → (out = Position.default ∧ st'.last = st.last) ∨
      ∃ l, FirstCovering s c k l ∧ SatellitesOk s k ∧ out = fixPosition s k l ∧ st'.last = out) := by
  constructor
  · intro hf
    obtain ⟨st1, h1, -, h2⟩ := outdoorPosition_nofix s c st k hf
    rw [h2] at h
    simp only [Option.some.injEq, Prod.mk.injEq] at h
    rw [← h.2]
    exact ⟨h1, h.1.symm⟩
  · intro hf
    obtain ⟨st1, hlast, -, h2⟩ := outdoorPosition_fix s c st k hf
    rw [h2] at h
    rcases outdoorLevels_spec s c st1 k with ⟨-, hr⟩ | ⟨l, hl, hcase⟩
    · rw [hr] at h
      simp only [Option.some.injEq, Prod.mk.injEq] at h
      exact .inl ⟨h.1.symm, by rw [← h.2, hlast]⟩
    · rcases hcase with ⟨-, -, hr⟩ | ⟨valid, buf, -, -, hyes, hno⟩
      · rw [hr] at h; simp at h
      · by_cases hv : valid = true ∧ SatellitesOk s k
        · rw [hyes hv] at h
          simp only [Option.some.injEq, Prod.mk.injEq] at h
          exact .inr ⟨l, hl, hv.2, h.1.symm, by rw [← h.2, ← h.1]⟩
        · rw [hno hv] at h
          simp only [Option.some.injEq, Prod.mk.injEq] at h
          exact .inl ⟨h.1.symm, by rw [← h.2]; exact hlast⟩

theorem LastOk.mono {s : CommonSettings} {c : LevelCollector} {calls : List Call} {p : Position} (h : LastOk s c calls p)
    (k : Call) : LastOk s c (calls ++ [k]) p := by
  rcases h with h | ⟨k', hk', h⟩
  · exact .inl h
  · exact .inr ⟨k', List.mem_append_left _ hk', h⟩

theorem outdoorRun_last (s : CommonSettings) (c : LevelCollector) (calls : List Call) (st : OutdoorState)
    (h : outdoorRun s c calls = some st) : LastOk s c calls st.last := by
  induction calls using List.reverseRecOn generalizing st with
  | nil =>
    left
    unfold outdoorRun at h
    simp only [List.foldlM_nil, Option.pure_def, Option.some.injEq] at h
    rw [← h]; rfl
  | append_singleton calls k ih =>
    unfold outdoorRun at h ih
    rw [List.foldlM_append] at h
    cases hst : calls.foldlM (fun st k => (outdoorPosition s c st k.ts k.sensor k.nmea k.indoor).map Prod.snd) outdoorInit with
    | none => rw [hst] at h; simp at h
    | some st0 =>
      have ih0 := ih st0 hst
      rw [hst] at h
      simp only [Option.bind_eq_bind, Option.bind_some, List.foldlM_cons, List.foldlM_nil, Option.pure_def] at h
      obtain ⟨out, hr⟩ : ∃ out, outdoorPosition s c st0 k.ts k.sensor k.nmea k.indoor = some (out, st) := by simpa using h
      obtain ⟨h1, h2⟩ := outdoor_step s c st0 k out st hr
      by_cases hf : IsFix k
      · rcases h2 hf with ⟨-, hl⟩ | ⟨l, hl, hs, ho, hlast⟩
        · rw [hl]; exact ih0.mono k
        · right
          exact ⟨k, by simp, hf, l, hl, hs, by rw [hlast, ho]⟩
      · rw [(h1 hf).1]; exact ih0.mono k

/-- **C35.** After any history of calls, a non empty position is the one reported for a fix seen in
this or an earlier call: a GNSS position at the fix on the first level covering it, with the
configured minimum deviation, enough satellites, and — if this call carries no fix — not older than
the validity window. -/
theorem C35_output (s : CommonSettings) (c : LevelCollector) (calls : List Call) (st st' : OutdoorState) (k : Call)
    (out : Position) (hrun : outdoorRun s c calls = some st)
    (hcall : outdoorPosition s c st k.ts k.sensor k.nmea k.indoor = some (out, st')) (hne : out.isEmpty = false) :
    ∃ f ∈ calls ++ [k], IsFix f ∧ (∃ l, FirstCovering s c f l ∧ SatellitesOk s f ∧
        out.levelId = l.id ∧ out.x = (fixOn f l).x ∧ out.y = (fixOn f l).y) ∧
      out.provider = .GNSS ∧ out.ts = f.ts ∧ s.minGpsDeviation ≤ out.deviationM ∧ f.sensor.data.values.z ≤ out.deviationM ∧
      (IsFix k → f = k) ∧ (¬ IsFix k → ((k.ts - f.ts : Int) : ℝ) / 1000 ≤ s.gpsValidTimeWindowSec) := by
  obtain ⟨h1, h2⟩ := outdoor_step s c st k out st' hcall
  have hd : out ≠ Position.default := by rintro rfl; simp [Position.default] at hne
  by_cases hf : IsFix k
  · rcases h2 hf with ⟨h, -⟩ | ⟨l, hl, hs, ho, -⟩
    · exact absurd h hd
    · refine ⟨k, by simp, hf, ⟨l, hl, hs, ?_⟩, ?_⟩ <;> rw [ho]
      · exact ⟨rfl, rfl, rfl⟩
      · exact ⟨rfl, rfl, le_max_right _ _, le_max_left _ _, fun _ => rfl, fun h => absurd hf h⟩
  · obtain ⟨-, ho⟩ := h1 hf
    by_cases hold : ((k.ts - st.last.ts : Int) : ℝ) / 1000 > s.gpsValidTimeWindowSec
    · rw [if_pos hold] at ho; exact absurd ho hd
    · rw [if_neg hold] at ho
      rcases outdoorRun_last s c calls st hrun with h | ⟨f, hfm, hff, l, hl, hs, hlast⟩
      · exact absurd (ho.trans h) hd
      · refine ⟨f, List.mem_append_left _ hfm, hff, ⟨l, hl, hs, ?_⟩, ?_⟩ <;> rw [ho]
        · rw [hlast]; exact ⟨rfl, rfl, rfl⟩
        · refine ⟨?_, ?_, ?_, ?_, fun h => absurd h hf, ?_⟩
          · rw [hlast]; rfl
          · rw [hlast]; rfl
          · rw [hlast]; exact le_max_right _ _
          · rw [hlast]; exact le_max_left _ _
          · intro _
            have := not_lt.mp hold
            rw [hlast] at this
            exact this

/-- **C35.** An empty result is the default position. -/
theorem C35_empty (s : CommonSettings) (c : LevelCollector) (calls : List Call) (st st' : OutdoorState) (k : Call)
    (out : Position) (hrun : outdoorRun s c calls = some st)
    (hcall : outdoorPosition s c st k.ts k.sensor k.nmea k.indoor = some (out, st')) (he : out.isEmpty = true) :
    out = Position.default := by
  obtain ⟨h1, h2⟩ := outdoor_step s c st k out st' hcall
  by_cases hf : IsFix k
  · rcases h2 hf with ⟨h, -⟩ | ⟨l, hl, hs, ho, -⟩
    · exact h
    · rw [ho] at he; simp [fixPosition] at he
  · obtain ⟨-, ho⟩ := h1 hf
    by_cases hold : ((k.ts - st.last.ts : Int) : ℝ) / 1000 > s.gpsValidTimeWindowSec
    · rw [if_pos hold] at ho; exact ho
    · rw [if_neg hold] at ho
      rcases outdoorRun_last s c calls st hrun with h | ⟨f, hfm, hff, l, hl, hs, hlast⟩
      · exact ho.trans h
      · rw [ho, hlast] at he; simp [fixPosition] at he

/-- **C35.** Without the sigma filter a fix with enough satellites on a covered level is always
reported, and no history is undefined. -/
theorem C35_reported (s : CommonSettings) (hs : s.useGpsSigmaFilter = false) (c : LevelCollector) (st : OutdoorState) (k : Call)
    (hf : IsFix k) (l : Level) (hl : FirstCovering s c k l) (hsat : SatellitesOk s k) :
    ∃ st', outdoorPosition s c st k.ts k.sensor k.nmea k.indoor = some (fixPosition s k l, st') := by
  obtain ⟨st1, -, -, h2⟩ := outdoorPosition_fix s c st k hf
  rw [h2]
  rcases outdoorLevels_spec s c st1 k with ⟨hno, -⟩ | ⟨l', hl', hcase⟩
  · exact absurd hl (hno l)
  · have : l' = l := by
      obtain ⟨b1, a1, e1, o1, n1⟩ := hl
      obtain ⟨b2, a2, e2, o2, n2⟩ := hl'
      rw [e1] at e2
      rcases List.append_eq_append_iff.mp e2 with ⟨x, hx1, hx2⟩ | ⟨x, hx1, hx2⟩
      · cases x with
        | nil => simp at hx2; exact hx2.1.symm
        | cons y ys =>
          simp at hx2
          exfalso
          refine n2 l ?_ o1
          rw [hx1, hx2.1]; simp
      · cases x with
        | nil => simp at hx2; exact hx2.1
        | cons y ys =>
          simp at hx2
          exfalso
          refine n1 l' ?_ o2
          rw [hx1, hx2.1]; simp
    subst this
    rcases hcase with ⟨⟨h, -⟩, -⟩ | ⟨valid, buf, hnf, -, hyes, -⟩
    · rw [hs] at h; simp at h
    · have hv := hnf (by rw [hs]; simp)
      exact ⟨_, hyes ⟨hv.1, hsat⟩⟩

/-- **C35.** With a positive filter window no history is undefined. -/
theorem C35_defined (s : CommonSettings) (hw : 0 < s.sigmaFilterWindow) (c : LevelCollector) (calls : List Call) :
    ∃ st, outdoorRun s c calls = some st ∧ st.buf.length ≤ s.sigmaFilterWindow := by
  induction calls using List.reverseRecOn with
  | nil => exact ⟨outdoorInit, rfl, by simp [outdoorInit]⟩
  | append_singleton calls k ih =>
    obtain ⟨st, hst, hb⟩ := ih
    have step : ∃ r, outdoorPosition s c st k.ts k.sensor k.nmea k.indoor = some r ∧ r.2.buf.length ≤ s.sigmaFilterWindow := by
      by_cases hf : IsFix k
      · obtain ⟨st1, -, hbuf1, h2⟩ := outdoorPosition_fix s c st k hf
        rw [h2]
        have hb1 : st1.buf.length ≤ s.sigmaFilterWindow := by
          rcases hbuf1 with h | h <;> rw [h]
          · exact hb
          · simp
        have hsig : ∀ p, ∃ r, sigmaAdd s.sigmaFilterWindow s.sigmaFilterDelta st1.buf p = some r ∧ r.2.length ≤ s.sigmaFilterWindow := by
          intro p
          unfold sigmaAdd
          by_cases hl : st1.buf.length = s.sigmaFilterWindow
          · rw [if_pos hl]
            cases hbuf : st1.buf with
            | nil => rw [hbuf] at hl; simp at hl; omega
            | cons q rest => exact ⟨_, rfl, by rw [hbuf] at hl; simp at hl ⊢; omega⟩
          · rw [if_neg hl]
            exact ⟨_, rfl, by simp; omega⟩
        rcases outdoorLevels_spec s c st1 k with ⟨-, hr⟩ | ⟨l, -, hcase⟩
        · exact ⟨_, hr, hb1⟩
        · rcases hcase with ⟨-, hn, -⟩ | ⟨valid, buf, h1, h2, h3, h4⟩
          · obtain ⟨r, hr, -⟩ := hsig (fixOn k l)
            rw [hr] at hn; simp at hn
          · have hbl : buf.length ≤ s.sigmaFilterWindow := by
              by_cases hfl : s.useGpsSigmaFilter = true ∧ k.ts ≠ st1.last.ts
              · obtain ⟨r, hr, hl⟩ := hsig (fixOn k l)
                rw [h2 hfl] at hr
                simp only [Option.some.injEq] at hr
                rw [← hr] at hl; exact hl
              · rw [(h1 hfl).2]; exact hb1
            by_cases hv : valid = true ∧ SatellitesOk s k
            · exact ⟨_, h3 hv, hbl⟩
            · exact ⟨_, h4 hv, hbl⟩
      · obtain ⟨st1, -, hbuf1, h2⟩ := outdoorPosition_nofix s c st k hf
        rw [h2]
        refine ⟨_, rfl, ?_⟩
        rcases hbuf1 with h | h <;> simp only [h]
        · exact hb
        · simp
    obtain ⟨r, hr, hrb⟩ := step
    refine ⟨r.2, ?_, hrb⟩
    unfold outdoorRun at hst ⊢
    rw [List.foldlM_append, hst]
    simp [hr]

/-- Not vacuous: a fix at the corner of the only level is reported there. -/
example : ∃ (c : LevelCollector) (k : Call) (st' : OutdoorState) (out : Position),
    outdoorPosition {} c outdoorInit k.ts k.sensor k.nmea k.indoor = some (out, st') ∧
    out.isEmpty = false ∧ out.levelId = "L" := by
  let l : Level := ⟨"L", ⟨0, 0⟩, [], mkRadiomap [], ⟨[], ⟨⟨0, 0⟩, ⟨10, 10⟩⟩, []⟩, ⟨[], []⟩⟩
  let c : LevelCollector := addLevel emptyCollector l
  let k : Call := ⟨1000, ⟨⟨.LOCATION, ⟨0, 0, 3⟩⟩, 1000⟩, ⟨⟨0, 0⟩, 0⟩, false⟩
  have hl : FirstCovering {} c k l := by
    refine ⟨[], [], rfl, .inl ?_, by simp⟩
    have hn : Geo.normalizeLongitude 0 = 0 := by unfold Geo.normalizeLongitude; norm_num
    simp [Box.Covers, l, k, fixOn, Geo.gpsToLocal, hn]
  obtain ⟨st', h⟩ := C35_reported {} rfl c outdoorInit k rfl l hl (by simp [SatellitesOk, k])
  exact ⟨c, k, st', _, h, rfl, rfl⟩

end Verif.Estim
