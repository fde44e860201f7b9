import Verif.Pedo.Lemmas
import Verif.Fusion.Model

/-!
# Moving the time: pedometer and complementary filter

Helper for C116. `sh L δ` moves the time stamps from `L` on by `δ` and leaves the smaller ones, which are the initial values of
the members, as they are.
-/

namespace Verif.Shift

open Verif Verif.Pedo Verif.Fusion

variable (L δ : Int)

/-- The moved time stamp. -/
def sh (t : Int) : Int := if L ≤ t then t + δ else t

variable {L δ}

theorem sh_real {t : Int} (h : L ≤ t) : sh L δ t = t + δ := if_pos h

theorem sh_old {t : Int} (hL : 0 < L) (h : t ≤ 0) : sh L δ t = t := if_neg (by omega)

theorem sh_sub {a b : Int} (ha : L ≤ a) (hb : L ≤ b) : sh L δ a - sh L δ b = a - b := by
  rw [sh_real ha, sh_real hb]; omega

theorem sh_lt (hδ : 0 ≤ δ) {a b : Int} : sh L δ a < sh L δ b ↔ a < b := by
  unfold sh; split_ifs <;> omega

theorem sh_inj (hδ : 0 ≤ δ) {a b : Int} : sh L δ a = sh L δ b ↔ a = b := by
  unfold sh; split_ifs <;> omega

theorem sh_pos (hL : 0 < L) (hδ : 0 ≤ δ) {a : Int} : sh L δ a > 0 ↔ a > 0 := by
  unfold sh; split_ifs <;> omega

theorem sh_neg_one (hL : 0 < L) (hδ : 0 ≤ δ) {a : Int} : sh L δ a = -1 ↔ a = -1 := by
  unfold sh; split_ifs <;> omega

theorem sh_zero (hL : 0 < L) (hδ : 0 ≤ δ) {a : Int} : sh L δ a = 0 ↔ a = 0 := by
  unfold sh; split_ifs <;> omega

/-- A member that has its initial value `v` or a time stamp. -/
def Mem (L v t : Int) : Prop := t = v ∨ L ≤ t

theorem mem_gt (hδ : 0 ≤ δ) {v K a b : Int} (hv : v ≤ 0) (hK : K < L) (hL : 0 < L) (ha : L ≤ a) (hb : Mem L v b) :
    sh L δ a - sh L δ b > K ↔ a - b > K := by
  rcases hb with rfl | hb
  · rw [sh_real ha, sh_old hL hv]; omega
  · rw [sh_sub ha hb]

theorem mem_lt (hδ : 0 ≤ δ) {v K a b : Int} (hv : v ≤ 0) (hK : K ≤ L) (hL : 0 < L) (ha : L ≤ a) (hb : Mem L v b) :
    sh L δ a - sh L δ b < K ↔ a - b < K := by
  rcases hb with rfl | hb
  · rw [sh_real ha, sh_old hL hv]; omega
  · rw [sh_sub ha hb]

variable (L δ)

/-- A moved measurement. -/
def shS {D : Type} (m : Stamped D) : Stamped D := ⟨m.data, sh L δ m.ts⟩

/-- A moved magnitude. -/
def shMag (m : Magnitude) : Magnitude := ⟨sh L δ m.ts, m.value⟩

/-- A moved step. -/
def shStep (m : Step) : Step := ⟨sh L δ m.ts, m.len⟩

/-- A moved pedometer. -/
def shPed (s : PedoState) : PedoState :=
  { s with accel := s.accel.map (shS L δ), mags := s.mags.map (shMag L δ), possibleTs := sh L δ s.possibleTs,
           stepTime := sh L δ s.stepTime }

/-- All time stamps of the pedometer are late enough, or initial. -/
structure PedOk (s : PedoState) : Prop where
  accel : ∀ m ∈ s.accel, L ≤ m.ts
  mags : ∀ m ∈ s.mags, L ≤ m.ts
  possible : Mem L (-1) s.possibleTs
  step : Mem L (-1) s.stepTime
  idle : s.isStep = false

variable {L δ}

theorem scan_sh {last : Int} (T : Int) (hl : L ≤ last) (l : List SensorMeasurement) (h : ∀ m ∈ l, L ≤ m.ts) :
    scan (sh L δ last) T (l.map (shS L δ)) = (scan last T l).map (List.map (shS L δ)) := by
  induction l with
  | nil => rfl
  | cons m l ih =>
    have hm := h m List.mem_cons_self
    have e : sh L δ last - (shS L δ m).ts = last - m.ts := sh_sub hl hm
    simp only [scan, List.map_cons, e]
    split_ifs
    · exact ih (fun m hm => h m (List.mem_cons_of_mem _ hm))
    · rfl

theorem sumMagn_sh (l : List SensorMeasurement) : sumMagn (l.map (shS L δ)) = sumMagn l := by
  unfold sumMagn
  rw [List.foldl_map]
  rfl

theorem filtered_sh (hL : 0 < L) (l : List SensorMeasurement) (h : ∀ m ∈ l, L ≤ m.ts) :
    calculateFilteredAccMagnitudes (l.map (shS L δ)) = (calculateFilteredAccMagnitudes l).map (shMag L δ) := by
  unfold calculateFilteredAccMagnitudes
  rw [List.getLast?_map]
  cases hl : l.getLast? with
  | none => rfl
  | some last =>
    have hs : L ≤ last.ts := h _ (List.mem_of_getLast? hl)
    have e : (shS L δ last).ts = sh L δ last.ts := rfl
    simp only [Option.map_some, e, scan_sh _ hs l h]
    cases scan last.ts AVERAGING_TIME_INTERVAL_MS l with
    | none => cases scan last.ts FILTER_TIME_INTERVAL_MS l <;> rfl
    | some aver =>
      cases scan last.ts FILTER_TIME_INTERVAL_MS l with
      | none => rfl
      | some filt =>
        simp only [Option.map_some, List.length_map, sumMagn_sh]
        split_ifs
        · simp only [Option.map_some, shMag, sh_old hL le_rfl]
        · rfl

theorem filtered_ts (l : List SensorMeasurement) (h : ∀ m ∈ l, L ≤ m.ts) {r : Magnitude}
    (hr : calculateFilteredAccMagnitudes l = some r) : r.ts = 0 ∨ L ≤ r.ts := by
  unfold calculateFilteredAccMagnitudes at hr
  cases hl : l.getLast? with
  | none => rw [hl] at hr; cases hr
  | some last =>
    have hs : L ≤ last.ts := h _ (List.mem_of_getLast? hl)
    rw [hl] at hr
    dsimp only at hr
    split at hr
    · split_ifs at hr
      · cases hr; exact Or.inl rfl
      · cases hr; exact Or.inr hs
    · cases hr

theorem popOld_sh {α : Type} (ts : α → Int) (f : α → α) (hf : ∀ a, ts (f a) = sh L δ (ts a)) (limit : Int) (l : List α)
    (h : ∀ a ∈ l, L ≤ ts a) : popOld ts limit (l.map f) = (popOld ts limit l).map (List.map f) := by
  induction l with
  | nil => rfl
  | cons a l ih =>
    have hl : L ≤ ts ((a :: l).getLast (by simp)) := h _ (List.getLast_mem _)
    have e : ts ((f a :: l.map f).getLast (by simp)) = sh L δ (ts ((a :: l).getLast (by simp))) := by
      rw [← hf]
      congr 1
      exact List.getLast_map (f := f) (l := a :: l) (by simp)
    have e2 : ts ((f a :: l.map f).getLast (by simp)) - ts (f a) = ts ((a :: l).getLast (by simp)) - ts a := by
      rw [e, hf, sh_sub hl (h a List.mem_cons_self)]
    simp only [popOld, List.map_cons, e2]
    split_ifs
    · exact ih (fun m hm => h m (List.mem_cons_of_mem _ hm))
    · rfl

theorem popOld_sub {α : Type} (ts : α → Int) (limit : Int) (l l' : List α) (h : popOld ts limit l = some l') :
    ∀ a ∈ l', a ∈ l := by
  induction l with
  | nil => simp [popOld] at h
  | cons a l ih =>
    simp only [popOld] at h
    split_ifs at h
    · exact fun b hb => List.mem_cons_of_mem _ (ih h b hb)
    · cases h; exact fun b hb => hb

theorem update_sh (hL : 0 < L) (hδ : 0 ≤ δ) {s : PedoState} (h : PedOk L s) {m : SensorMeasurement} (hm : L ≤ m.ts) :
    update (shPed L δ s) (shS L δ m) = (update s m).map (shPed L δ) ∧ ∀ s', update s m = some s' → PedOk L s' := by
  unfold update
  have e0 : (shS L δ m).data.type = m.data.type := rfl
  have e1 : (shPed L δ s).mags.length = s.mags.length := List.length_map _
  rw [e0]
  by_cases ht : m.data.type = SensorType.ACCELEROMETER
  · simp only [if_pos ht]
    have ha : ∀ x ∈ s.accel ++ [m], L ≤ x.ts := by
      intro x hx
      rcases List.mem_append.mp hx with hx | hx
      · exact h.accel x hx
      · rw [List.mem_singleton] at hx; rw [hx]; exact hm
    have e2 : (shPed L δ s).accel ++ [shS L δ m] = (s.accel ++ [m]).map (shS L δ) := by
      rw [List.map_append]; rfl
    unfold push
    simp only [e2, filtered_sh hL _ ha, e1]
    cases hf : calculateFilteredAccMagnitudes (s.accel ++ [m]) with
    | none => exact ⟨rfl, fun s' h' => by cases h'⟩
    | some magn =>
      simp only [Option.map_some, popOld_sh (α := SensorMeasurement) Stamped.ts (shS L δ) (fun _ => rfl) _ _ ha]
      cases hp : popOld Stamped.ts (2 * AVERAGING_TIME_INTERVAL_MS) (s.accel ++ [m]) with
      | none => exact ⟨rfl, fun s' h' => by cases h'⟩
      | some acc =>
        have e3 : (shMag L δ magn).ts ≠ 0 ↔ magn.ts ≠ 0 := not_congr (sh_zero hL hδ)
        simp only [Option.map_some, e3]
        refine ⟨?_, ?_⟩
        · split_ifs
          · simp [shPed]
          · simp [shPed]
        · intro s' h'
          cases h'
          refine ⟨fun x hx => ha x (popOld_sub _ _ _ _ hp x hx), ?_, h.possible, h.step, h.idle⟩
          dsimp only
          split_ifs with hz
          · intro x hx
            rcases List.mem_append.mp hx with hx | hx
            · exact h.mags x hx
            · rw [List.mem_singleton] at hx
              rw [hx]
              exact (filtered_ts _ ha hf).resolve_left hz
          · exact h.mags
  · simp only [if_neg ht, e1, Option.map_some]
    refine ⟨rfl, ?_⟩
    intro s' h'
    cases h'
    exact ⟨h.accel, h.mags, h.possible, h.step, h.idle⟩

theorem leftBorder_sh {r : Int} (T : Int) (hr : L ≤ r) (mags : List Magnitude) (h : ∀ m ∈ mags, L ≤ m.ts) (n : ℕ) :
    leftBorder (mags.map (shMag L δ)) (sh L δ r) T n = leftBorder mags r T n := by
  induction n with
  | zero => rfl
  | succ n ih =>
    simp only [leftBorder, List.getElem?_map]
    cases hm : mags[n + 1]? with
    | none => rfl
    | some m =>
      have e : sh L δ r - (shMag L δ m).ts = r - m.ts := sh_sub hr (h m (List.mem_of_getElem? hm))
      simp only [Option.map_some, e, ih]

theorem maxElement_sh (r : Magnitude) (l : List Magnitude) :
    maxElement (shMag L δ r) (l.map (shMag L δ)) = maxElement r l := by
  cases l with
  | nil => rfl
  | cons a l => simp only [maxElement, List.map_cons, List.foldl_map]; rfl

theorem minElement_sh (r : Magnitude) (l : List Magnitude) :
    minElement (shMag L δ r) (l.map (shMag L δ)) = minElement r l := by
  cases l with
  | nil => rfl
  | cons a l => simp only [minElement, List.map_cons, List.foldl_map]; rfl

theorem stepLength_sh (T : Int) (mags : List Magnitude) (h : ∀ m ∈ mags, L ≤ m.ts) (i : ℕ) :
    calculateStepLength (mags.map (shMag L δ)) T i = calculateStepLength mags T i := by
  unfold calculateStepLength
  rw [List.getElem?_map]
  cases hm : mags[i]? with
  | none => rfl
  | some r =>
    have hr := h r (List.mem_of_getElem? hm)
    have e : (shMag L δ r).ts = sh L δ r.ts := rfl
    simp only [Option.map_some, e, leftBorder_sh T hr mags h]
    cases leftBorder mags r.ts T i with
    | none => rfl
    | some left =>
      simp only [← List.map_drop, ← List.map_take, maxElement_sh, minElement_sh]

variable (L δ) in
/-- A moved result of the pedometer. -/
def shSt (r : PedoState × List Step) : PedoState × List Step := (shPed L δ r.1, r.2.map (shStep L δ))

theorem stepBody_sh (hL : 2000 ≤ L) (hδ : 0 ≤ δ) (between : ℝ) (i : ℕ) {st : PedoState × List Step} (h : PedOk L st.1) :
    stepBody between i (shSt L δ st) = (stepBody between i st).map (shSt L δ) ∧
      ∀ r, stepBody between i st = some r → PedOk L r.1 := by
  obtain ⟨s, steps⟩ := st
  have h0 : (0 : Int) < L := by omega
  unfold stepBody
  simp only [shSt]
  by_cases hi : i = 0
  · simp only [if_pos hi]; exact ⟨rfl, fun r hr => by cases hr⟩
  · simp only [if_neg hi]
    have e1 : (shPed L δ s).mags = s.mags.map (shMag L δ) := rfl
    have g1 : (shPed L δ s).mags[i]? = (s.mags[i]?).map (shMag L δ) := List.getElem?_map
    have g2 : (shPed L δ s).mags[i - 1]? = (s.mags[i - 1]?).map (shMag L δ) := List.getElem?_map
    rw [g1, g2]
    cases hc : s.mags[i]? with
    | none => exact ⟨rfl, fun r hr => by cases hr⟩
    | some cur =>
      cases hp : s.mags[i - 1]? with
      | none => exact ⟨rfl, fun r hr => by cases hr⟩
      | some prev =>
        have hcur := h.mags cur (List.mem_of_getElem? hc)
        have e2 : (shPed L δ s).isStep = s.isStep := rfl
        have e3 : (shMag L δ cur).ts - (shPed L δ s).possibleTs > MIN_TIME_BETWEEN_STEPS_MS ↔
            cur.ts - s.possibleTs > MIN_TIME_BETWEEN_STEPS_MS :=
          mem_gt hδ (by norm_num) (by unfold MIN_TIME_BETWEEN_STEPS_MS; omega) h0 hcur h.possible
        have e4 : (shMag L δ cur).value = cur.value := rfl
        have e5 : (shMag L δ prev).value = prev.value := rfl
        simp only [Option.map_some, e2, e3, e4, e5]
        by_cases hC : s.isStep = false ∧ prev.value < MINIMAL_THRESHOLD_VALUE ∧ cur.value > MINIMAL_THRESHOLD_VALUE ∧
            cur.ts - s.possibleTs > MIN_TIME_BETWEEN_STEPS_MS ∧ between > 0
        · simp only [if_pos hC, if_true]
          have e6 : calculateStepLength (shPed L δ s).mags UPDATE_TIME_INTERVAL_MS i =
              calculateStepLength s.mags UPDATE_TIME_INTERVAL_MS i := stepLength_sh _ _ h.mags _
          simp only [e1] at e6
          simp only [e1, e6]
          cases calculateStepLength s.mags UPDATE_TIME_INTERVAL_MS i with
          | none => exact ⟨rfl, fun r hr => by cases hr⟩
          | some len =>
            have e7 : (shMag L δ cur).ts - (shPed L δ s).stepTime < MAX_STEP_TIME ↔ cur.ts - s.stepTime < MAX_STEP_TIME :=
              mem_lt hδ (by norm_num) (by unfold MAX_STEP_TIME; omega) h0 hcur h.step
            refine ⟨?_, ?_⟩
            · dsimp only
              have e8 : (if (shMag L δ cur).ts - (shPed L δ s).stepTime < MAX_STEP_TIME then
                    (shPed L δ s).times ++ [(shMag L δ cur).ts - (shPed L δ s).stepTime] else (shPed L δ s).times) =
                  if cur.ts - s.stepTime < MAX_STEP_TIME then s.times ++ [cur.ts - s.stepTime] else s.times := by
                by_cases hd : cur.ts - s.stepTime < MAX_STEP_TIME
                · have e9 : (shMag L δ cur).ts - (shPed L δ s).stepTime = cur.ts - s.stepTime := by
                    rcases h.step with h1 | h1
                    · change s.stepTime = -1 at h1
                      rw [h1] at hd; unfold MAX_STEP_TIME at hd; omega
                    · exact sh_sub hcur h1
                  rw [if_pos (e7.mpr hd), if_pos hd, e9]
                  rfl
                · rw [if_neg (fun h => hd (e7.mp h)), if_neg hd]
                  rfl
              rw [e8, Option.map_some, shSt, List.map_append]
              rfl
            · intro r hr
              cases hr
              exact ⟨h.accel, h.mags, Or.inr hcur, Or.inr hcur, rfl⟩
        · simp only [if_neg hC, h.idle, Bool.false_eq_true, if_false]
          have e9 : ¬ (shPed L δ s).isStep = true := by rw [e2, h.idle]; simp
          have e10 : ¬ s.isStep = true := by rw [h.idle]; simp
          rw [if_neg e9, if_neg e10]
          exact ⟨rfl, fun r hr => by cases hr; exact h⟩

theorem stepLoop_sh (hL : 2000 ≤ L) (hδ : 0 ≤ δ) (between : ℝ) (n : ℕ) : ∀ (i : ℕ) {st : PedoState × List Step}, PedOk L st.1 →
    stepLoop between i n (shSt L δ st) = (stepLoop between i n st).map (shSt L δ) ∧
      ∀ r, stepLoop between i n st = some r → PedOk L r.1 := by
  induction n with
  | zero => exact fun i st h => ⟨rfl, fun r hr => by cases hr; exact h⟩
  | succ n ih =>
    intro i st h
    obtain ⟨h1, h2⟩ := stepBody_sh hL hδ between i h
    simp only [stepLoop, h1]
    cases hb : stepBody between i st with
    | none => exact ⟨rfl, fun r hr => by cases hr⟩
    | some r => exact ih (i + 1) (h2 r hb)

theorem calculateSteps_sh (hL : 2000 ≤ L) (hδ : 0 ≤ δ) {s : PedoState} (h : PedOk L s) :
    calculateSteps (shPed L δ s) = (calculateSteps s).map (shSt L δ) ∧ ∀ r, calculateSteps s = some r → PedOk L r.1 := by
  unfold calculateSteps
  have e1 : (shPed L δ s).mags.length = s.mags.length := List.length_map _
  rw [e1]
  by_cases h3 : s.mags.length ≤ 3
  · simp only [if_pos h3]; exact ⟨rfl, fun r hr => by cases hr; exact h⟩
  · simp only [if_neg h3]
    have e2 : (shPed L δ s).times = s.times := rfl
    have e3 : (shPed L δ s).magSize = s.magSize := rfl
    obtain ⟨h1, h2⟩ := stepLoop_sh (δ := δ) hL hδ (timeBetweenSteps s.times) (s.mags.length - s.magSize) s.magSize (st := (s, [])) h
    have e4 : ((shPed L δ s, []) : PedoState × List Step) = shSt L δ (s, []) := rfl
    rw [e2, e3, e4, h1]
    cases hb : stepLoop (timeBetweenSteps s.times) s.magSize (s.mags.length - s.magSize) (s, []) with
    | none => exact ⟨rfl, fun r hr => by cases hr⟩
    | some r =>
      obtain ⟨s', steps⟩ := r
      have hs' := h2 _ hb
      have e5 : (shPed L δ s').mags = s'.mags.map (shMag L δ) := rfl
      simp only [Option.map_some, shSt, e5,
        popOld_sh (α := Magnitude) Magnitude.ts (shMag L δ) (fun _ => rfl) _ _ hs'.mags]
      cases hp : popOld Magnitude.ts (2 * UPDATE_TIME_INTERVAL_MS) s'.mags with
      | none => exact ⟨rfl, fun r hr => by cases hr⟩
      | some mags =>
        refine ⟨rfl, ?_⟩
        intro r hr
        cases hr
        exact ⟨hs'.accel, fun x hx => hs'.mags x (popOld_sub _ _ _ _ hp x hx), hs'.possible, hs'.step, hs'.idle⟩

/-! ## Complementary filter -/

variable (L δ)

/-- A moved filter. -/
def shCf (s : CfState) : CfState :=
  { s with currentTs := sh L δ s.currentTs, lastGyroTs := sh L δ s.lastGyroTs,
           lastDeviceAzimuthTs := sh L δ s.lastDeviceAzimuthTs, magnLowPassed := shS L δ s.magnLowPassed,
           accelLowPassed := shS L δ s.accelLowPassed }

/-- All time stamps of the filter are late enough, or initial. -/
structure CfOk (s : CfState) : Prop where
  gyro : Mem L (-1) s.lastGyroTs
  device : Mem L (-1) s.lastDeviceAzimuthTs
  magn : L ≤ s.magnLowPassed.ts
  accel : L ≤ s.accelLowPassed.ts

variable {L δ}

theorem lowPass_sh {prev cur : SensorMeasurement} (hp : L ≤ prev.ts) (hc : L ≤ cur.ts) :
    lowPassFilter (shS L δ prev) (shS L δ cur) = shS L δ (lowPassFilter prev cur) := by
  have e : lpfAlpha (shS L δ prev).ts (shS L δ cur).ts = lpfAlpha prev.ts cur.ts := by
    unfold lpfAlpha
    have e : (shS L δ cur).ts - (shS L δ prev).ts = cur.ts - prev.ts := sh_sub hc hp
    rw [e]
  unfold lowPassFilter
  rw [e]
  rfl

theorem gyro_sh {s : CfState} {m : SensorMeasurement} (hm : L ≤ m.ts) (hs : L ≤ s.lastGyroTs) :
    updateUsingGyroscope (shCf L δ s) (shS L δ m) = shCf L δ (updateUsingGyroscope s m) := by
  unfold updateUsingGyroscope
  have e : (shS L δ m).ts - (shCf L δ s).lastGyroTs = m.ts - s.lastGyroTs := sh_sub hm hs
  rw [e]
  rfl

theorem cfUpdate_sh (hL : 0 < L) (hδ : 0 ≤ δ) (c : CfConfig) {s : CfState} (h : CfOk L s) {m : SensorMeasurement}
    (hm : L ≤ m.ts) : cfUpdate c (shCf L δ s) (shS L δ m) = shCf L δ (cfUpdate c s m) ∧ CfOk L (cfUpdate c s m) ∧
      (cfUpdate c s m).currentTs = m.ts := by
  unfold cfUpdate
  have et : (shS L δ m).data.type = m.data.type := rfl
  rw [et]
  have hgy : (shCf L δ s).lastGyroTs = -1 ↔ s.lastGyroTs = -1 := sh_neg_one hL hδ
  cases ht : m.data.type <;> dsimp only
  · refine ⟨?_, ⟨h.gyro, h.device, h.magn, hm⟩, rfl⟩
    have := lowPass_sh (δ := δ) h.accel hm
    have e : (shCf L δ s).accelLowPassed = shS L δ s.accelLowPassed := rfl
    rw [e, this]
    rfl
  · have e : (shCf L δ s).magnLowPassed = shS L δ s.magnLowPassed := rfl
    have this := lowPass_sh (δ := δ) h.magn hm
    rw [e, this]
    simp only [hgy]
    by_cases hg : s.lastGyroTs = -1
    · simp only [if_pos hg]
      refine ⟨?_, ⟨?_, ?_, ?_, ?_⟩, trivial⟩
      · unfold updateUsingMagnetometer
        have e2 : (shS L δ m).data = m.data := rfl
        simp only [e2]
        by_cases hz : magnitude (vnormalized m.data.values) < CF_DOUBLE_EPSILON
        · simp only [if_pos hz]; rfl
        · simp only [if_neg hz]; rfl
      all_goals unfold updateUsingMagnetometer; dsimp only; split_ifs
      exacts [h.gyro, h.gyro, h.device, h.device, hm, hm, h.accel, h.accel]
    · simp only [if_neg hg]
      exact ⟨rfl, ⟨h.gyro, h.device, hm, h.accel⟩, trivial⟩
  · simp only [hgy]
    by_cases hg : s.lastGyroTs = -1
    · simp only [if_pos hg]
      have := gyro_sh (δ := δ) (s := { s with lastGyroTs := m.ts }) hm hm
      have e : { shCf L δ s with lastGyroTs := (shS L δ m).ts } = shCf L δ { s with lastGyroTs := m.ts } := rfl
      rw [e, this]
      exact ⟨rfl, ⟨Or.inr hm, h.device, h.magn, h.accel⟩, trivial⟩
    · simp only [if_neg hg]
      rw [gyro_sh hm (h.gyro.resolve_left hg)]
      exact ⟨rfl, ⟨Or.inr hm, h.device, h.magn, h.accel⟩, trivial⟩
  · exact ⟨rfl, ⟨h.gyro, h.device, h.magn, h.accel⟩, rfl⟩
  · exact ⟨rfl, ⟨h.gyro, h.device, h.magn, h.accel⟩, rfl⟩
  · exact ⟨rfl, ⟨h.gyro, Or.inr hm, h.magn, h.accel⟩, rfl⟩

theorem outdated_sh (hL : 0 < L) (hδ : 0 ≤ δ) (c : CfConfig) {s : CfState} (h : CfOk L s) (hc : L ≤ s.currentTs) :
    isDeviceAzimuthOutdated c (shCf L δ s) = isDeviceAzimuthOutdated c s := by
  unfold isDeviceAzimuthOutdated
  have e1 : (shCf L δ s).lastDeviceAzimuthTs = -1 ↔ s.lastDeviceAzimuthTs = -1 := sh_neg_one hL hδ
  dsimp only
  by_cases hd : s.lastDeviceAzimuthTs = -1
  · rw [if_pos (Or.inr (e1.mpr hd)), if_pos (Or.inr hd)]
  · have e2 : (shCf L δ s).currentTs - (shCf L δ s).lastDeviceAzimuthTs = s.currentTs - s.lastDeviceAzimuthTs :=
      sh_sub hc (h.device.resolve_left hd)
    rw [e2]
    simp only [e1]

/-! ## Sensor fusion -/

variable (L δ)

/-- A moved sensor fusion. -/
def shFus (s : FusionState) : FusionState := { s with filter := shCf L δ s.filter, pedometer := shPed L δ s.pedometer }

/-- A moved motion info. -/
noncomputable def shInfo (i : MotionInfo) : MotionInfo := { i with lastMotionTs := sh L δ i.lastMotionTs }

/-- All time stamps of the sensor fusion are late enough, or initial. -/
structure FusOk (s : FusionState) : Prop where
  filter : CfOk L s.filter
  ped : PedOk L s.pedometer

variable {L δ}

theorem displacement_sh (hL : 2000 ≤ L) (hδ : 0 ≤ δ) (c : FusionConfig) {s : FusionState} (h : FusOk L s)
    {m : SensorMeasurement} (hm : L ≤ m.ts) {now : Int} (hn : L ≤ now) :
    calculateDisplacement c (shFus L δ s) (shS L δ m) (sh L δ now) =
        (calculateDisplacement c s m now).map (fun r => (shFus L δ r.1, shInfo L δ r.2)) ∧
      ∀ r, calculateDisplacement c s m now = some r → FusOk L r.1 ∧ Mem L 0 r.2.lastMotionTs := by
  have h0 : (0 : Int) < L := by omega
  unfold calculateDisplacement
  obtain ⟨u1, u2⟩ := update_sh (δ := δ) h0 hδ h.ped hm
  have e1 : (shFus L δ s).pedometer = shPed L δ s.pedometer := rfl
  rw [e1, u1]
  cases hu : update s.pedometer m with
  | none => exact ⟨rfl, fun r hr => by cases hr⟩
  | some ped =>
    obtain ⟨c1, c2⟩ := calculateSteps_sh (δ := δ) hL hδ (u2 _ hu)
    simp only [Option.map_some, c1]
    cases hc : calculateSteps ped with
    | none => exact ⟨rfl, fun r hr => by cases hr⟩
    | some r =>
      obtain ⟨ped', steps⟩ := r
      have hp' := c2 _ hc
      obtain ⟨f1, f2, f3⟩ := cfUpdate_sh (δ := δ) h0 hδ c.cf h.filter hm
      have e2 : (shFus L δ s).filter = shCf L δ s.filter := rfl
      have e3 := outdated_sh (δ := δ) h0 hδ c.cf f2 (by rw [f3]; exact hm)
      have e4 : (steps.map (shStep L δ)).isEmpty = steps.isEmpty := List.isEmpty_map
      have e5 : (steps.map (shStep L δ)).foldl (fun sum st => sum + st.len) (0 : ℝ) =
          steps.foldl (fun sum st => sum + st.len) (0 : ℝ) := by rw [List.foldl_map]; rfl
      simp only [Option.map_some, shSt, e2, f1, e3, e4, e5, List.length_map]
      by_cases hz : steps.isEmpty = true
      · simp only [hz, Bool.not_true, Bool.false_eq_true, if_false, Option.map_some, Option.some.injEq, Prod.mk.injEq]
        refine ⟨⟨rfl, ?_⟩, ?_⟩
        · unfold shInfo
          split_ifs <;> simp [sh_old h0 le_rfl, shCf, getFusedAzimuth]
        · intro r hr
          cases hr
          refine ⟨⟨f2, hp'⟩, Or.inl ?_⟩
          dsimp only
          split_ifs <;> rfl
      · rw [Bool.not_eq_true] at hz
        simp only [hz, Bool.not_false, if_true, Option.map_some, Option.some.injEq, Prod.mk.injEq]
        refine ⟨⟨?_, ?_⟩, ?_⟩
        · unfold shFus
          split_ifs <;> simp [shCf, getFusedAzimuth]
        · unfold shInfo shFus
          split_ifs <;> simp [shCf, getFusedAzimuth]
        · intro r hr
          cases hr
          exact ⟨⟨f2, hp'⟩, Or.inr hn⟩

end Verif.Shift
