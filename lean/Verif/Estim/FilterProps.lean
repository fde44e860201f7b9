import Verif.Estim.Props

/-!
# C35 with the sigma filter: which fixes are reported, and what the maximal deviation does
-/

namespace Verif.Estim

open Verif.Levels
open Verif.Geo (XYPoint)

/-- The deviation of the fix, or the configured minimum, exceeds the configured maximum. -/
def Coarse (s : CommonSettings) (k : Call) : Prop :=
  IsFix k ∧ s.maxGpsDeviation < ((max k.sensor.data.values.z s.minGpsDeviation : ℝ) : EReal)

open Classical in
/-- What a call does to the filter before its fix is tested: an indoor position or a coarse fix empties it. -/
noncomputable def clearing (s : CommonSettings) (k : Call) : List SigmaOp :=
  if k.indoor = true ∨ Coarse s k then [.clear] else []

open Classical in
/-- What a call adds to the filter: its fix, as a point of the first level covering it. -/
noncomputable def adding (s : CommonSettings) (c : LevelCollector) (k : Call) : List SigmaOp :=
  if h : IsFix k ∧ ∃ l, FirstCovering s c k l then [.add (fixOn k h.2.choose)] else []

/-- The fixes in the filter after a history of calls, oldest first. -/
noncomputable def filterUses (s : CommonSettings) (c : LevelCollector) (calls : List Call) : List SigmaOp :=
  calls.flatMap (fun k => clearing s k ++ adding s c k)

theorem firstCovering_unique {s : CommonSettings} {c : LevelCollector} {k : Call} {l l' : Level}
    (hl : FirstCovering s c k l) (hl' : FirstCovering s c k l') : l' = l := by
  obtain ⟨b1, a1, e1, o1, n1⟩ := hl
  obtain ⟨b2, a2, e2, o2, n2⟩ := hl'
  rw [e1] at e2
  rcases List.append_eq_append_iff.mp e2 with ⟨x, hx1, hx2⟩ | ⟨x, hx1, hx2⟩
  · cases x with
    | nil => simp at hx2; exact hx2.1.symm
    | cons y ys =>
      simp at hx2
      exfalso
      refine n2 l ?_ o1
      rw [hx1, hx2.1]; simp
  · cases x with
    | nil => simp at hx2; exact hx2.1
    | cons y ys =>
      simp at hx2
      exfalso
      refine n1 l' ?_ o2
      rw [hx1, hx2.1]; simp

theorem adding_of_covering {s : CommonSettings} {c : LevelCollector} {k : Call} {l : Level} (hf : IsFix k)
    (hl : FirstCovering s c k l) : adding s c k = [.add (fixOn k l)] := by
  have h : IsFix k ∧ ∃ l, FirstCovering s c k l := ⟨hf, l, hl⟩
  unfold adding
  rw [dif_pos h, firstCovering_unique hl h.2.choose_spec]

theorem adding_nothing {s : CommonSettings} {c : LevelCollector} {k : Call} (h : ¬ IsFix k ∨ ∀ l, ¬ FirstCovering s c k l) :
    adding s c k = [] := by
  unfold adding
  rw [dif_neg]
  rintro ⟨h1, l, h2⟩
  rcases h with h | h
  · exact h h1
  · exact h l h2

theorem sinceClear_snoc_clear (ops : List SigmaOp) : sinceClear (ops ++ [.clear]) = [] := by
  simp [sinceClear]

theorem sinceClear_snoc_add (ops : List SigmaOp) (p : XYPoint) : sinceClear (ops ++ [.add p]) = sinceClear ops ++ [p] := by
  simp [sinceClear]

/-- The buffer with which the fix is tested. -/
noncomputable def cleared (s : CommonSettings) (st : OutdoorState) (k : Call) : OutdoorState :=
  open Classical in if k.indoor = true ∨ Coarse s k then { st with buf := [] } else st

theorem outdoor_fix_eq (s : CommonSettings) (c : LevelCollector) (st : OutdoorState) (k : Call) (hf : IsFix k) :
    outdoorPosition s c st k.ts k.sensor k.nmea k.indoor = outdoorLevels s (cleared s st k)
        ⟨k.sensor.data.values.x, k.sensor.data.values.y, max k.sensor.data.values.z s.minGpsDeviation, k.ts⟩
        (extractNumberOfSatellites k.nmea) c.levels := by
  have hg : extractGpsPosition s k.ts k.sensor =
      some ⟨k.sensor.data.values.x, k.sensor.data.values.y, max k.sensor.data.values.z s.minGpsDeviation, k.ts⟩ := if_pos hf
  unfold outdoorPosition
  rw [hg]
  dsimp only
  unfold cleared Coarse
  by_cases h : k.indoor = true ∨ s.maxGpsDeviation < ((max k.sensor.data.values.z s.minGpsDeviation : ℝ) : EReal)
  · rw [if_pos h, if_pos (by simpa [hf] using h)]
  · rw [if_neg h, if_neg (by simpa [hf] using h)]

theorem outdoor_nofix_state (s : CommonSettings) (c : LevelCollector) (st : OutdoorState) (k : Call) (hf : ¬ IsFix k) :
    (outdoorPosition s c st k.ts k.sensor k.nmea k.indoor).map Prod.snd = some (cleared s st k) := by
  have hg : extractGpsPosition s k.ts k.sensor = none := if_neg hf
  unfold outdoorPosition
  rw [hg]
  dsimp only
  unfold cleared Coarse
  simp only [hf, false_and]
  split_ifs <;> rfl

theorem cleared_last (s : CommonSettings) (st : OutdoorState) (k : Call) : (cleared s st k).last = st.last := by
  unfold cleared; split_ifs <;> rfl

theorem cleared_buf (s : CommonSettings) (st : OutdoorState) (k : Call) (window : ℕ) (ops : List SigmaOp)
    (h : st.buf = lastN window (sinceClear ops)) : (cleared s st k).buf = lastN window (sinceClear (ops ++ clearing s k)) := by
  unfold cleared clearing
  split_ifs
  · rw [sinceClear_snoc_clear]; simp [lastN]
  · rw [List.append_nil]; exact h

theorem outdoorRun_snoc (s : CommonSettings) (c : LevelCollector) (calls : List Call) (k : Call) :
    outdoorRun s c (calls ++ [k]) = (outdoorRun s c calls).bind (fun st =>
      (outdoorPosition s c st k.ts k.sensor k.nmea k.indoor).map Prod.snd) := by
  unfold outdoorRun
  rw [List.foldlM_append]
  simp only [Option.bind_eq_bind, List.foldlM_cons, List.foldlM_nil, Option.pure_def]
  congr 1
  funext st
  cases (outdoorPosition s c st k.ts k.sensor k.nmea k.indoor).map Prod.snd <;> rfl

/-- One call with a new time stamp, with the filter on. -/
theorem filtered_step {s : CommonSettings} (hs : s.useGpsSigmaFilter = true) (hw : 0 < s.sigmaFilterWindow) (c : LevelCollector)
    {st : OutdoorState} {ops : List SigmaOp} (hb : st.buf = lastN s.sigmaFilterWindow (sinceClear ops)) {k : Call}
    (hk : k.ts ≠ st.last.ts) :
    ∃ out st', outdoorPosition s c st k.ts k.sensor k.nmea k.indoor = some (out, st') ∧
      st'.buf = lastN s.sigmaFilterWindow (sinceClear (ops ++ (clearing s k ++ adding s c k))) ∧
      ∀ l, IsFix k → FirstCovering s c k l → SatellitesOk s k →
        let old := sinceClear (ops ++ clearing s k)
        let recent := lastN s.sigmaFilterWindow old
        (s.sigmaFilterWindow ≤ old.length ∧ Within3Sigma (recent.map XYPoint.x) s.sigmaFilterDelta (fixOn k l).x ∧
            Within3Sigma (recent.map XYPoint.y) s.sigmaFilterDelta (fixOn k l).y → out = fixPosition s k l) ∧
        (¬ (s.sigmaFilterWindow ≤ old.length ∧ Within3Sigma (recent.map XYPoint.x) s.sigmaFilterDelta (fixOn k l).x ∧
            Within3Sigma (recent.map XYPoint.y) s.sigmaFilterDelta (fixOn k l).y) → out = Position.default) := by
  have hcb := cleared_buf s st k s.sigmaFilterWindow ops hb
  by_cases hf : IsFix k
  · rw [outdoor_fix_eq s c st k hf]
    rcases outdoorLevels_spec s c (cleared s st k) k with ⟨hno, hr⟩ | ⟨l, hl, hcase⟩
    · refine ⟨_, _, hr, ?_, fun l _ hl => absurd hl (hno l)⟩
      rw [adding_nothing (Or.inr hno), List.append_nil]
      exact hcb
    · obtain ⟨b, hadd, hacc⟩ := sigmaAdd_eq s.sigmaFilterWindow hw s.sigmaFilterDelta (sinceClear (ops ++ clearing s k)) (fixOn k l)
      rw [← hcb] at hadd
      have hfil : s.useGpsSigmaFilter = true ∧ k.ts ≠ (cleared s st k).last.ts := ⟨hs, by rw [cleared_last]; exact hk⟩
      have hbuf : sinceClear (ops ++ (clearing s k ++ adding s c k)) = sinceClear (ops ++ clearing s k) ++ [fixOn k l] := by
        rw [adding_of_covering hf hl, ← List.append_assoc, sinceClear_snoc_add]
      rcases hcase with ⟨-, hn, -⟩ | ⟨valid, buf, -, hv, hyes, hno⟩
      · rw [hadd] at hn; cases hn
      · have he := hv hfil
        rw [hadd, Option.some.injEq, Prod.mk.injEq] at he
        obtain ⟨rfl, rfl⟩ := he
        by_cases hok : b = true ∧ SatellitesOk s k
        · refine ⟨_, _, hyes hok, by rw [hbuf], ?_⟩
          intro l' _ hl' _
          rw [firstCovering_unique hl hl']
          refine ⟨fun _ => rfl, fun h => absurd (hacc.mp hok.1) h⟩
        · refine ⟨_, _, hno hok, by rw [hbuf], ?_⟩
          intro l' _ hl' hsat
          rw [firstCovering_unique hl hl']
          refine ⟨fun h => absurd ⟨hacc.mpr h, hsat⟩ hok, fun _ => rfl⟩
  · have h := outdoor_nofix_state s c st k hf
    cases hr : outdoorPosition s c st k.ts k.sensor k.nmea k.indoor with
    | none => rw [hr] at h; cases h
    | some r =>
      rw [hr, Option.map_some, Option.some.injEq] at h
      refine ⟨r.1, r.2, rfl, ?_, fun l h' => absurd h' hf⟩
      rw [h, adding_nothing (Or.inl hf), List.append_nil]
      exact hcb

theorem filtered_run {s : CommonSettings} (hs : s.useGpsSigmaFilter = true) (hw : 0 < s.sigmaFilterWindow) (c : LevelCollector)
    (calls : List Call) (hpos : ∀ k ∈ calls, 0 < k.ts) (hinc : calls.Pairwise (fun a b => a.ts < b.ts)) :
    ∃ st, outdoorRun s c calls = some st ∧ st.buf = lastN s.sigmaFilterWindow (sinceClear (filterUses s c calls)) ∧
      (st.last.ts = 0 ∨ ∃ k ∈ calls, st.last.ts = k.ts) := by
  induction calls using List.reverseRecOn with
  | nil => exact ⟨outdoorInit, rfl, by simp [outdoorInit, filterUses, sinceClear, lastN], Or.inl rfl⟩
  | append_singleton calls k ih =>
    obtain ⟨h1, -, h3⟩ := List.pairwise_append.mp hinc
    obtain ⟨st, hr, hb, hl⟩ := ih (fun k hk => hpos k (by simp [hk])) h1
    have hk : k.ts ≠ st.last.ts := by
      have hp := hpos k (by simp)
      rcases hl with hl | ⟨j, hj, hl⟩
      · omega
      · have := h3 j hj k (by simp)
        omega
    obtain ⟨out, st', e1, e2, -⟩ := filtered_step hs hw c hb hk
    refine ⟨st', by rw [outdoorRun_snoc, hr, Option.bind_some, e1]; rfl, ?_, ?_⟩
    · unfold filterUses at e2 ⊢
      rw [List.flatMap_append]
      simpa using e2
    · obtain ⟨s1, s2⟩ := outdoor_step s c st k out st' e1
      by_cases hf : IsFix k
      · rcases s2 hf with ⟨-, h⟩ | ⟨l, -, -, ho, h⟩
        · rw [h]
          rcases hl with hl | ⟨j, hj, hl⟩
          · exact Or.inl hl
          · exact Or.inr ⟨j, by simp [hj], hl⟩
        · exact Or.inr ⟨k, by simp, by rw [h, ho]; rfl⟩
      · rw [(s1 hf).1]
        rcases hl with hl | ⟨j, hj, hl⟩
        · exact Or.inl hl
        · exact Or.inr ⟨j, by simp [hj], hl⟩

/-- **C35, with the sigma filter.** After any history of calls at increasing positive times, a fix with enough
satellites on a covered level is reported iff it passes the test of C34 against the fixes since the filter was
last emptied; the filter is emptied by an indoor position in the call before and by a coarse fix, also by the
fix itself. Otherwise nothing is reported. -/
theorem C35_filtered (s : CommonSettings) (hs : s.useGpsSigmaFilter = true) (hw : 0 < s.sigmaFilterWindow) (c : LevelCollector)
    (calls : List Call) (k : Call) (hpos : ∀ j ∈ calls ++ [k], 0 < j.ts) (hinc : (calls ++ [k]).Pairwise (fun a b => a.ts < b.ts))
    (hf : IsFix k) (l : Level) (hl : FirstCovering s c k l) (hsat : SatellitesOk s k) :
    ∃ st out st', outdoorRun s c calls = some st ∧
      outdoorPosition s c st k.ts k.sensor k.nmea k.indoor = some (out, st') ∧
      let old := sinceClear (filterUses s c calls ++ clearing s k)
      let recent := lastN s.sigmaFilterWindow old
      (s.sigmaFilterWindow ≤ old.length ∧ Within3Sigma (recent.map XYPoint.x) s.sigmaFilterDelta (fixOn k l).x ∧
          Within3Sigma (recent.map XYPoint.y) s.sigmaFilterDelta (fixOn k l).y → out = fixPosition s k l) ∧
      (¬ (s.sigmaFilterWindow ≤ old.length ∧ Within3Sigma (recent.map XYPoint.x) s.sigmaFilterDelta (fixOn k l).x ∧
          Within3Sigma (recent.map XYPoint.y) s.sigmaFilterDelta (fixOn k l).y) → out = Position.default) := by
  obtain ⟨h1, -, h3⟩ := List.pairwise_append.mp hinc
  obtain ⟨st, hr, hb, hlast⟩ := filtered_run hs hw c calls (fun j hj => hpos j (by simp [hj])) h1
  have hk : k.ts ≠ st.last.ts := by
    have hp := hpos k (by simp)
    rcases hlast with h | ⟨j, hj, h⟩
    · omega
    · have := h3 j hj k (by simp)
      omega
  obtain ⟨out, st', e1, -, e3⟩ := filtered_step hs hw c hb hk
  exact ⟨st, out, st', hr, e1, e3 l hf hl hsat⟩

/-- **C35, with the sigma filter.** A coarse fix, or a fix right after an indoor position, is never reported. -/
theorem C35_filtered_coarse (s : CommonSettings) (hs : s.useGpsSigmaFilter = true) (hw : 0 < s.sigmaFilterWindow) (c : LevelCollector)
    (calls : List Call) (k : Call) (hpos : ∀ j ∈ calls ++ [k], 0 < j.ts) (hinc : (calls ++ [k]).Pairwise (fun a b => a.ts < b.ts))
    (hf : IsFix k) (hck : k.indoor = true ∨ Coarse s k) :
    ∃ st st', outdoorRun s c calls = some st ∧
      outdoorPosition s c st k.ts k.sensor k.nmea k.indoor = some (Position.default, st') := by
  obtain ⟨h1, -, h3⟩ := List.pairwise_append.mp hinc
  obtain ⟨st, hr, hb, hlast⟩ := filtered_run hs hw c calls (fun j hj => hpos j (by simp [hj])) h1
  have hk : k.ts ≠ st.last.ts := by
    have hp := hpos k (by simp)
    rcases hlast with h | ⟨j, hj, h⟩
    · omega
    · have := h3 j hj k (by simp)
      omega
  obtain ⟨out, st', e1, -, e3⟩ := filtered_step hs hw c hb hk
  refine ⟨st, st', hr, ?_⟩
  rcases (outdoor_step s c st k out st' e1).2 hf with ⟨h, -⟩ | ⟨l, hl, hsat, ho, -⟩
  · rw [e1, h]
  · have hold : sinceClear (filterUses s c calls ++ clearing s k) = [] := by
      unfold clearing
      rw [if_pos hck, sinceClear_snoc_clear]
    have := (e3 l hf hl hsat).2 (by
      rw [hold]
      rintro ⟨h, -⟩
      simp at h
      omega)
    rw [e1, this]

/-- **C35 (finding).** Without the sigma filter the maximal deviation has no effect at all: two settings that differ
only in it report the same positions for all calls. -/
theorem C35_max_deviation_unused (s : CommonSettings) (hs : s.useGpsSigmaFilter = false) (d : EReal) (c : LevelCollector)
    (calls : List Call) (st st' : OutdoorState) (h : outdoorRun s c calls = some st)
    (h' : outdoorRun { s with maxGpsDeviation := d } c calls = some st') (k : Call) :
    st.last = st'.last ∧
    (outdoorPosition s c st k.ts k.sensor k.nmea k.indoor).map Prod.fst =
      (outdoorPosition { s with maxGpsDeviation := d } c st' k.ts k.sensor k.nmea k.indoor).map Prod.fst := by
  have hkey : ∀ (a b : OutdoorState) (k : Call), a.last = b.last →
      (outdoorPosition s c a k.ts k.sensor k.nmea k.indoor).map (fun r => (r.1, r.2.last)) =
      (outdoorPosition { s with maxGpsDeviation := d } c b k.ts k.sensor k.nmea k.indoor).map (fun r => (r.1, r.2.last)) := by
    intro a b k hab
    by_cases hf : IsFix k
    · rw [outdoor_fix_eq s c a k hf, outdoor_fix_eq { s with maxGpsDeviation := d } c b k hf]
      have hab' : (cleared s a k).last = (cleared { s with maxGpsDeviation := d } b k).last := by
        rw [cleared_last, cleared_last, hab]
      generalize cleared s a k = a' at hab'
      generalize cleared { s with maxGpsDeviation := d } b k = b' at hab'
      rcases outdoorLevels_spec s c a' k with ⟨hno, hr⟩ | ⟨l, hl, hcase⟩ <;>
        rcases outdoorLevels_spec { s with maxGpsDeviation := d } c b' k with ⟨hno', hr'⟩ | ⟨l', hl', hcase'⟩
      · dsimp only at hr hr' ⊢
        rw [hr, hr']
        simp [hab']
      · exact absurd hl' (hno l')
      · exact absurd hl (hno' l)
      · have e : l' = l := firstCovering_unique hl hl'
        subst e
        have hnf : ∀ t : Int, ¬ (s.useGpsSigmaFilter = true ∧ k.ts ≠ t) := by rw [hs]; simp
        rcases hcase with ⟨h, -⟩ | ⟨v, bu, h1, -, h3, h4⟩
        · exact absurd h (hnf _)
        rcases hcase' with ⟨h, -⟩ | ⟨v', bu', h1', -, h3', h4'⟩
        · exact absurd h (hnf _)
        have hv := (h1 (hnf _)).1
        have hv' := (h1' (hnf _)).1
        by_cases hsat : SatellitesOk s k
        · dsimp only at h3 h3' ⊢
          rw [h3 ⟨hv, hsat⟩, h3' ⟨hv', hsat⟩]
          rfl
        · dsimp only at h4 h4' ⊢
          rw [h4 (fun h => hsat h.2), h4' (fun h => hsat h.2)]
          simp [hab']
    · obtain ⟨a1, ha1, -, ha2⟩ := outdoorPosition_nofix s c a k hf
      obtain ⟨b1, hb1, -, hb2⟩ := outdoorPosition_nofix { s with maxGpsDeviation := d } c b k hf
      rw [ha2, hb2]
      simp only [Option.map_some, hab, ha1, hb1]
  have hlast : st.last = st'.last := by
    induction calls using List.reverseRecOn generalizing st st' with
    | nil =>
      unfold outdoorRun at h h'
      simp only [List.foldlM_nil, Option.pure_def, Option.some.injEq] at h h'
      rw [← h, ← h']
    | append_singleton calls k ih =>
      rw [outdoorRun_snoc] at h h'
      obtain ⟨a, ha, ha'⟩ := Option.bind_eq_some_iff.mp h
      obtain ⟨b, hb, hb'⟩ := Option.bind_eq_some_iff.mp h'
      have e := hkey a b k (ih a b ha hb)
      obtain ⟨r, hr, rfl⟩ := Option.map_eq_some_iff.mp ha'
      obtain ⟨r', hr', rfl⟩ := Option.map_eq_some_iff.mp hb'
      rw [hr, hr'] at e
      simp at e
      exact e.2
  refine ⟨hlast, ?_⟩
  have e := congrArg (Option.map Prod.fst) (hkey st st' k hlast)
  simpa [Option.map_map, Function.comp_def] using e

/-- Not vacuous: with a window of one, the second of two equal fixes passes the filter and is reported; the first, and
a coarse one, are not. -/
example : ∃ (s : CommonSettings) (c : LevelCollector) (k1 k2 k3 : Call) (l : Level), s.useGpsSigmaFilter = true ∧ 0 < s.sigmaFilterWindow ∧
    (∀ j ∈ [k1] ++ [k2], 0 < j.ts) ∧ ([k1] ++ [k2]).Pairwise (fun a b => a.ts < b.ts) ∧ IsFix k2 ∧ FirstCovering s c k2 l ∧
    SatellitesOk s k2 ∧ Coarse s k3 ∧ ¬ Coarse s k2 ∧
    (let old := sinceClear (filterUses s c [k1] ++ clearing s k2)
     let recent := lastN s.sigmaFilterWindow old
     s.sigmaFilterWindow ≤ old.length ∧ Within3Sigma (recent.map XYPoint.x) s.sigmaFilterDelta (fixOn k2 l).x ∧
      Within3Sigma (recent.map XYPoint.y) s.sigmaFilterDelta (fixOn k2 l).y) := by
  let l : Level := ⟨"L", ⟨0, 0⟩, [], mkRadiomap [], ⟨[], ⟨⟨0, 0⟩, ⟨10, 10⟩⟩, []⟩, ⟨[], []⟩⟩
  let c : LevelCollector := addLevel emptyCollector l
  let s : CommonSettings := { useGpsSigmaFilter := true, maxGpsDeviation := ((100 : ℝ) : EReal) }
  let k : ℝ → Int → Call := fun z t => ⟨t, ⟨⟨.LOCATION, ⟨0, 0, z⟩⟩, t⟩, ⟨⟨0, 0⟩, 0⟩, false⟩
  have hn : Geo.normalizeLongitude 0 = 0 := by unfold Geo.normalizeLongitude; norm_num
  have hfix : ∀ z t, fixOn (k z t) l = ⟨0, 0⟩ := by
    intro z t
    simp [l, k, fixOn, Geo.gpsToLocal, hn]
  have hl : ∀ z t, FirstCovering s c (k z t) l := by
    intro z t
    refine ⟨[], [], rfl, .inl ?_, by simp⟩
    rw [hfix]
    simp [Box.Covers, l]
  have hco : ∀ t, ¬ Coarse s (k 3 t) := by
    rintro t ⟨-, h⟩
    have h2 : (100 : ℝ) < max 3 5 := EReal.coe_lt_coe_iff.mp h
    norm_num at h2
  have hcl : ∀ t, clearing s (k 3 t) = [] := by
    intro t
    unfold clearing
    exact if_neg (by rintro (h | h); · cases h
                     · exact hco t h)
  have hold : sinceClear (filterUses s c [k 3 1000] ++ clearing s (k 3 2000)) = [⟨0, 0⟩] := by
    rw [hcl, List.append_nil]
    unfold filterUses
    rw [List.flatMap_singleton, hcl, adding_of_covering (show IsFix (k 3 1000) from rfl) (hl 3 1000), hfix]
    rfl
  refine ⟨s, c, k 3 1000, k 3 2000, k 200 3000, l, rfl, by decide, ?_, ?_, rfl, hl _ _, by simp [SatellitesOk, k], ⟨rfl, ?_⟩, hco _, ?_⟩
  · intro j hj
    simp only [List.cons_append, List.nil_append, List.mem_cons, List.not_mem_nil, or_false] at hj
    rcases hj with rfl | rfl <;> decide
  · simp [k]
  · refine EReal.coe_lt_coe_iff.mpr ?_
    change (100 : ℝ) < max 200 5
    norm_num
  · rw [hold, hfix]
    simp [s, lastN, Within3Sigma, stddev, mean]

end Verif.Estim
