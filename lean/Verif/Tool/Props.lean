import Verif.Tool.Model
import Verif.Nav.Examples
import Verif.MapLoad.FileProps
import Verif.JsonIn.LogProps

/-!
# Property theorems for the replay program: C105, C106, C107
-/

namespace Verif.Tool

open Verif.Levels
open Verif.Knn (Result)
open Verif.Nav
open Verif.Geo (GeoPoint)
open Verif.MapLoad (Feature FileLevel)

/-! ## Specification -/

/-- `c` is the client the files describe. -/
def BuiltFrom (w : World) (files : Files) (c : Cfg) : Prop :=
  ∃ fs ls settings gs lc, files.map = some fs ∧ MapLoad.parseGeojson w.bg w.envelope w.order fs = .ok ls ∧
    JsonIn.createSettingsFromJson files.settings = .ok (settings, 0) ∧ ls.mapM toGeoLevel = some gs ∧
    gs.foldlM (addGeoLevel w.bg) emptyCollector = .ok lc ∧
    mkCfg w.env lc settings.common settings.levels = some c

/-- The line shows the output `o`. -/
def Shows (o : Output) (l : Line) : Prop :=
  l.latitude = o.posLatitude ∧ l.longitude = o.posLongitude ∧ l.altitude = o.posAltitude ∧
    l.orientation = o.posOrientation ∧ l.level = o.posLevel ∧ l.status = o.status

/-- The messages of the log are in time order and the first one has a time stamp other than 0. -/
def Clean (ms : List Measurement) : Prop := Ordered ms ∧ ∀ m, ms.head? = some m → m.ts ≠ 0

/-! ## Batches -/

theorem chunks_flatten (k : ℕ) (ms : List Measurement) : (chunks k ms).flatten = ms := by
  induction ms using chunks.induct k with
  | case1 => simp [chunks]
  | case2 m ms ih =>
    rw [chunks, List.flatten_cons, ih, List.cons_append, List.take_append_drop]

theorem chunks_ne (k : ℕ) (ms : List Measurement) : ∀ b ∈ chunks k ms, b ≠ [] ∧ b.length ≤ k + 1 := by
  induction ms using chunks.induct k with
  | case1 => simp [chunks]
  | case2 m ms ih =>
    rw [chunks]
    intro b hb
    rcases List.mem_cons.mp hb with rfl | hb
    · simp
    · exact ih b hb

theorem chunks_full (k : ℕ) (ms : List Measurement) : ∀ b ∈ (chunks k ms).dropLast, b.length = k + 1 := by
  induction ms using chunks.induct k with
  | case1 => simp [chunks]
  | case2 m ms ih =>
    rw [chunks]
    cases hd : ms.drop k with
    | nil => simp [chunks]
    | cons a l =>
      rw [← hd]
      have hne : chunks k (ms.drop k) ≠ [] := by rw [hd, chunks]; simp
      rw [List.dropLast_cons_of_ne_nil hne]
      intro b hb
      rcases List.mem_cons.mp hb with rfl | hb
      · have : k < ms.length := by
          by_contra hc
          rw [List.drop_eq_nil_of_le (not_lt.mp hc)] at hd
          cases hd
        simp only [List.length_cons, List.length_take]
        omega
      · exact ih b hb

/-- **C105 (batches).** For every batch size but 0 the batches are, one after the other, the log; none is empty.
Positive sizes give batches of that size, the last one possibly smaller; a negative size gives one batch.  With
size 0 the program does not end, unless the log is empty. -/
theorem C105_batches (n : Int) (ms : List Measurement) :
    (n ≠ 0 → ∃ bs, splitBatches n ms = some bs ∧ bs.flatten = ms ∧ (∀ b ∈ bs, b ≠ []) ∧
      (0 < n → (∀ b ∈ bs, (b.length : Int) ≤ n) ∧ ∀ b ∈ bs.dropLast, (b.length : Int) = n) ∧
      (n < 0 → bs.length ≤ 1)) ∧
    (splitBatches n ms = none ↔ n = 0 ∧ ms ≠ []) := by
  cases ms with
  | nil => exact ⟨fun _ => ⟨[], rfl, rfl, by simp, by simp, by simp⟩, by simp [splitBatches]⟩
  | cons m ms =>
    unfold splitBatches
    dsimp only
    by_cases h0 : n = 0
    · simp [h0]
    · rw [if_neg h0]
      by_cases hn : n < 0
      · rw [if_pos hn]
        exact ⟨fun _ => ⟨[m :: ms], rfl, by simp, by simp, by omega, by simp⟩, by simp [h0]⟩
      · rw [if_neg hn]
        refine ⟨fun _ => ⟨_, rfl, chunks_flatten _ _, fun b hb => (chunks_ne _ _ b hb).1, fun hp => ⟨?_, ?_⟩, fun h => absurd h hn⟩, by simp [h0]⟩
        · intro b hb
          have := (chunks_ne _ _ b hb).2
          omega
        · intro b hb
          have := chunks_full _ _ b hb
          omega

/-! ## Lines -/

theorem printOutputs_append (h : ℝ) (first : Int) (t : Track) (a b : List Measurement) (oa ob : List (Output × DebugState))
    (hl : oa.length = a.length) :
    printOutputs h first t (a ++ b) (oa ++ ob) = andThen (printOutputs h first t a oa) (fun p =>
      andThen (printOutputs h first p.1 b ob) (fun q => .ok (q.1, p.2 ++ q.2))) := by
  induction a generalizing t oa with
  | nil =>
    obtain rfl := List.length_eq_zero_iff.mp hl
    change printOutputs h first t b ob = andThen (printOutputs h first t [] []) _
    simp only [printOutputs, andThen, List.nil_append]
    cases printOutputs h first t b ob <;> rfl
  | cons m a ih =>
    cases oa with
    | nil => cases hl
    | cons o oa =>
      simp only [List.cons_append, printOutputs]
      rw [ih _ oa (by simpa using hl), andThen_assoc, andThen_assoc]
      congr 1
      funext p
      rw [andThen_assoc]
      rfl

theorem printOutputs_ok (h : ℝ) (first : Int) (t : Track) (ms : List Measurement) (os : List (Output × DebugState))
    (hl : os.length ≤ ms.length) :
    ∃ t' ls, printOutputs h first t ms os = .ok (t', ls) ∧ ls.length = os.length ∧
      ∀ (i : ℕ) (m : Measurement) (o : Output × DebugState), ms[i]? = some m → os[i]? = some o →
        ∃ l, ls[i]? = some l ∧ l.time = (m.ts - first).tdiv 1000 ∧ Shows o.1 l := by
  induction ms generalizing t os with
  | nil =>
    obtain rfl : os = [] := List.length_eq_zero_iff.mp (Nat.le_zero.mp hl)
    exact ⟨t, [], by simp [printOutputs], rfl, by simp⟩
  | cons m ms ih =>
    cases os with
    | nil => exact ⟨t, [], by simp [printOutputs], rfl, by simp⟩
    | cons o os =>
      obtain ⟨t', ls, h1, h2, h3⟩ := ih (if o.1.status = .OK then buildPdrTrack t o.2.stepLen h else t) os (by simpa using hl)
      simp only [printOutputs]
      rw [h1]
      refine ⟨_, _, rfl, by simp [h2], ?_⟩
      intro i m' o' hm ho
      cases i with
      | zero =>
        simp only [List.getElem?_cons_zero, Option.some.injEq] at hm ho
        subst hm; subst ho
        exact ⟨_, rfl, rfl, rfl, rfl, rfl, rfl, rfl, rfl⟩
      | succ i =>
        simp only [List.getElem?_cons_succ] at hm ho ⊢
        exact h3 i m' o' hm ho

theorem runBatches_ordered (h : ℝ) (c : Cfg) (s : State) (first : Int) (hf : first ≠ 0) (t : Track)
    (bs : List (List Measurement)) (hne : ∀ b ∈ bs, b ≠ []) (ho : Ordered bs.flatten) :
    runBatches h c s first t bs = andThen (navigate c s bs.flatten) (fun r =>
      andThen (printOutputs h first t bs.flatten r.2) (fun p => .ok p.2)) := by
  induction bs generalizing s t with
  | nil =>
    simp only [runBatches, List.flatten_nil, navigate, andThen, printOutputs]
  | cons b bs ih =>
    cases b with
    | nil => exact absurd rfl (hne [] (by simp))
    | cons m ms =>
      rw [List.flatten_cons] at ho
      obtain ⟨hb, hbs, -⟩ := List.pairwise_append.mp ho
      simp only [runBatches]
      rw [if_neg hf, List.flatten_cons, navigate_eq c s (m :: ms ++ bs.flatten), records_ordered _ ho, runs_append,
        navigate_eq, records_ordered _ hb, andThen_assoc]
      cases hr : runs c s (m :: ms) with
      | throws => rfl
      | undefined => rfl
      | ok r =>
        have hlen := runs_length c s r.1 _ r.2 hr
        simp only [andThen]
        have hstep : ∀ t', runBatches h c r.1 first t' bs = _ := fun t' => ih r.1 t' (fun b hb => hne b (by simp [hb])) hbs
        obtain ⟨t', ls, hp, -, -⟩ := printOutputs_ok h first t (m :: ms) r.2 (le_of_eq hlen)
        rw [hp]
        dsimp only
        rw [hstep, navigate_eq, records_ordered _ hbs]
        cases hr2 : runs c r.1 bs.flatten with
        | throws => rfl
        | undefined => rfl
        | ok r2 =>
          dsimp only [andThen]
          rw [printOutputs_append _ _ _ _ _ _ _ hlen, hp]
          dsimp only [andThen]
          cases printOutputs h first t' bs.flatten r2.2 <;> rfl

/-- The whole loop for a clean log. -/
theorem runBatches_clean (h : ℝ) (c : Cfg) (s : State) (t : Track) (bs : List (List Measurement)) (hne : ∀ b ∈ bs, b ≠ [])
    (hc : Clean bs.flatten) :
    runBatches h c s 0 t bs = andThen (navigate c s bs.flatten) (fun r =>
      andThen (printOutputs h ((bs.flatten.head?.map (fun m : Measurement => m.ts)).getD 0) t bs.flatten r.2) (fun p => .ok p.2)) := by
  match bs, hne with
  | [], _ => simp only [runBatches, List.flatten_nil, navigate, andThen, printOutputs]
  | [] :: bs, hne => exact absurd rfl (hne [] (by simp))
  | (m :: ms) :: bs, hne =>
    have hm : m.ts ≠ 0 := hc.2 m (by simp)
    rw [← (show ((((m :: ms) :: bs).flatten).head?.map (fun m : Measurement => m.ts)).getD 0 = m.ts by simp)] at hm
    rw [← runBatches_ordered h c s _ hm t _ hne hc.1]
    simp only [runBatches, List.flatten_cons, List.cons_append, List.head?_cons, Option.map_some, Option.getD_some, if_true]
    congr 1
    funext r
    have h1 : (if m.ts = 0 then m.ts else m.ts) = m.ts := by split_ifs <;> rfl
    exact congrArg (fun x => andThen (printOutputs h x t (m :: ms) r.2) (fun p =>
      andThen (runBatches h c r.1 x p.1 bs) (fun ls => Result.ok (p.2 ++ ls)))) h1.symm

/-! ## The program -/

theorem makeClient_ok {w : World} {files : Files} {c : Cfg} {code : Int}
    (h : makeClient w files = some (.ok (some c), code)) : BuiltFrom w files c ∧ code = 0 := by
  unfold makeClient at h
  cases hm : files.map with
  | none => rw [hm] at h; simp at h
  | some fs =>
    rw [hm] at h
    dsimp only at h
    cases hp : MapLoad.parseGeojson w.bg w.envelope w.order fs with
    | throws => rw [hp] at h; simp at h
    | undefined => rw [hp] at h; simp at h
    | ok ls =>
      rw [hp] at h
      dsimp only at h
      cases hs : JsonIn.createSettingsFromJson files.settings with
      | throws => rw [hs] at h; simp at h
      | undefined => rw [hs] at h; simp at h
      | ok r =>
        obtain ⟨settings, k⟩ := r
        rw [hs] at h
        dsimp only at h
        by_cases hk : k ≠ 0
        · rw [if_pos hk] at h; simp at h
        · rw [if_neg hk] at h
          obtain rfl : k = 0 := by simpa using hk
          cases hg : ls.mapM toGeoLevel with
          | none => rw [hg] at h; simp at h
          | some gs =>
            rw [hg] at h
            simp only [Option.some.injEq, Prod.mk.injEq] at h
            obtain ⟨h1, h2⟩ := h
            obtain ⟨lc, h3, h4⟩ := andThen_ok h1
            obtain ⟨c', h5, h6⟩ := andThen_ok h4
            cases h6
            refine ⟨⟨fs, ls, settings, gs, lc, hm, hp, hs, hg, ?_, ?_⟩, h2.symm⟩
            · unfold collectLevels at h3
              cases hf : gs.foldlM (addGeoLevel w.bg) emptyCollector with
              | error e => rw [hf] at h3; cases h3
              | ok c => rw [hf] at h3; cases h3; rfl
            · cases hc : mkCfg w.env lc settings.common settings.levels with
              | none => rw [hc] at h5; cases h5
              | some c => rw [hc] at h5; cases h5; rfl

theorem makeClient_built {w : World} {files : Files} {c : Cfg} (h : BuiltFrom w files c) :
    makeClient w files = some (.ok (some c), 0) := by
  obtain ⟨fs, ls, settings, gs, lc, h1, h2, h3, h4, h5, h6⟩ := h
  unfold makeClient
  rw [h1]
  dsimp only
  rw [h2]
  dsimp only
  rw [h3]
  dsimp only
  rw [if_neg (by simp), h4]
  dsimp only
  unfold collectLevels
  rw [h5]
  dsimp only [andThen]
  rw [h6]
  rfl

theorem main_built {w : World} {files : Files} {c : Cfg} (h : BuiltFrom w files c) (n : Int) :
    main w files n = .of (JsonIn.getNavMessages files.log) (fun ms =>
      match splitBatches n ms with
      | none => .endless
      | some batches => .of (runBatches w.heading c (init c w.garbage) 0 Track.start batches) (.returns 0)) := by
  unfold main
  rw [makeClient_built h]
  rfl

/-- **C105 (batch size).** The program does the same for every batch size but 0, if the messages of the log are in
time order and the first time stamp is not 0. -/
theorem C105_batch_size (w : World) (files : Files) (hlog : ∀ ms, JsonIn.getNavMessages files.log = .ok ms → Clean ms)
    (n n' : Int) (hn : n ≠ 0) (hn' : n' ≠ 0) : main w files n = main w files n' := by
  unfold main
  cases hm : makeClient w files with
  | none => rfl
  | some r =>
    obtain ⟨r, code⟩ := r
    dsimp only
    congr 1
    funext c
    cases c with
    | none => rfl
    | some c =>
      dsimp only
      cases hl : JsonIn.getNavMessages files.log with
      | throws => rfl
      | undefined => rfl
      | ok ms =>
        dsimp only [Outcome.of]
        obtain ⟨bs, h1, h2, h3, -⟩ := (C105_batches n ms).1 hn
        obtain ⟨bs', h1', h2', h3', -⟩ := (C105_batches n' ms).1 hn'
        rw [h1, h1']
        dsimp only
        rw [runBatches_clean _ _ _ _ bs h3 (by rw [h2]; exact hlog ms hl),
          runBatches_clean _ _ _ _ bs' h3' (by rw [h2']; exact hlog ms hl), h2, h2']

theorem Outcome.of_returns {α : Type} {r : Result α} {f : α → Outcome} {k : Int} {lines : List Line}
    (h : Outcome.of r f = .returns k lines) : ∃ a, r = .ok a ∧ f a = .returns k lines := by
  cases r with
  | ok a => exact ⟨a, rfl, h⟩
  | throws => cases h
  | undefined => cases h

theorem makeClient_code {w : World} {files : Files} {code : Int}
    (h : makeClient w files = some (.ok none, code)) : code ≠ 0 := by
  unfold makeClient at h
  cases hm : files.map with
  | none => rw [hm] at h; simp at h
  | some fs =>
    rw [hm] at h
    dsimp only at h
    cases hp : MapLoad.parseGeojson w.bg w.envelope w.order fs with
    | throws => rw [hp] at h; simp at h
    | undefined => rw [hp] at h; simp at h
    | ok ls =>
      rw [hp] at h
      dsimp only at h
      cases hs : JsonIn.createSettingsFromJson files.settings with
      | throws => rw [hs] at h; simp at h
      | undefined => rw [hs] at h; simp at h
      | ok r =>
        obtain ⟨settings, k⟩ := r
        rw [hs] at h
        dsimp only at h
        by_cases hk : k ≠ 0
        · rw [if_pos hk] at h
          simp only [Option.some.injEq, Prod.mk.injEq, true_and] at h
          rw [← h]; exact hk
        · rw [if_neg hk] at h
          cases hg : ls.mapM toGeoLevel with
          | none => rw [hg] at h; simp at h
          | some gs =>
            rw [hg] at h
            simp only [Option.some.injEq, Prod.mk.injEq] at h
            obtain ⟨lc, h3, h4⟩ := andThen_ok h.1
            obtain ⟨c', h5, h6⟩ := andThen_ok h4
            cases h6

/-- A run that returns 0 built a client, read the log and finished the loop. -/
theorem main_returns {w : World} {files : Files} {n : Int} {lines : List Line} (h : main w files n = .returns 0 lines) :
    ∃ c ms bs, BuiltFrom w files c ∧ JsonIn.getNavMessages files.log = .ok ms ∧ splitBatches n ms = some bs ∧
      runBatches w.heading c (init c w.garbage) 0 Track.start bs = .ok lines := by
  unfold main at h
  cases hm : makeClient w files with
  | none => rw [hm] at h; cases h
  | some r =>
    obtain ⟨r, code⟩ := r
    rw [hm] at h
    dsimp only at h
    obtain ⟨c, rfl, h2⟩ := Outcome.of_returns h
    cases c with
    | none =>
      simp only [Outcome.returns.injEq] at h2
      exact absurd h2.1 (makeClient_code hm)
    | some c =>
      dsimp only at h2
      obtain ⟨ms, h3, h4⟩ := Outcome.of_returns h2
      cases hs : splitBatches n ms with
      | none => rw [hs] at h4; cases h4
      | some bs =>
        rw [hs] at h4
        dsimp only at h4
        obtain ⟨ls, h5, h6⟩ := Outcome.of_returns h4
        cases h6
        exact ⟨c, ms, bs, (makeClient_ok hm).1, h3, hs, h5⟩

/-- **C105 (lines).** If the program returns 0 for such a log and any batch size, it prints one line per message: the
line of a message shows the whole seconds since the first message and the output that one call of `navigate` for the
whole log gives for this message, with the client the files describe. -/
theorem C105_lines (w : World) (files : Files) (ms : List Measurement) (hms : JsonIn.getNavMessages files.log = .ok ms)
    (hc : Clean ms) (n : Int) (lines : List Line) (h : main w files n = .returns 0 lines) :
    ∃ c s outs, BuiltFrom w files c ∧ navigate c (init c w.garbage) ms = .ok (s, outs) ∧ lines.length = ms.length ∧
      outs.length = ms.length ∧
      ∀ (i : ℕ) (first m : Measurement), ms.head? = some first → ms[i]? = some m →
        ∃ l o, lines[i]? = some l ∧ outs[i]? = some o ∧ Shows o.1 l ∧
          l.time * 1000 ≤ m.ts - first.ts ∧ m.ts - first.ts < (l.time + 1) * 1000 := by
  obtain ⟨c, ms', bs, hb, hms', hbs, hrun⟩ := main_returns h
  rw [hms] at hms'
  cases hms'
  obtain ⟨h2, h3⟩ : bs.flatten = ms ∧ ∀ b ∈ bs, b ≠ [] := by
    by_cases hn : n = 0
    · by_cases he : ms = []
      · subst he; cases hbs; simp
      · rw [((C105_batches n ms).2).mpr ⟨hn, he⟩] at hbs; cases hbs
    · obtain ⟨bs', h1, h2, h3, -⟩ := (C105_batches n ms).1 hn
      rw [hbs] at h1; cases h1
      exact ⟨h2, h3⟩
  rw [runBatches_clean _ _ _ _ bs h3 (by rw [h2]; exact hc), h2] at hrun
  cases hr : navigate c (init c w.garbage) ms with
  | throws => rw [hr] at hrun; cases hrun
  | undefined => rw [hr] at hrun; cases hrun
  | ok r =>
    rw [hr] at hrun
    dsimp only [andThen] at hrun
    have hlen : r.2.length = ms.length := by
      rw [navigate_eq, records_ordered _ hc.1] at hr
      exact runs_length c _ r.1 _ r.2 hr
    obtain ⟨t', ls, hp, hl, hs⟩ := printOutputs_ok w.heading ((ms.head?.map (fun m : Measurement => m.ts)).getD 0) Track.start ms r.2 (le_of_eq hlen)
    rw [hp] at hrun
    cases hrun
    refine ⟨c, r.1, r.2, hb, hr, by rw [hl, hlen], hlen, ?_⟩
    intro i first m hfirst hm
    have hi : i < ms.length := (List.getElem?_eq_some_iff.mp hm).1
    have ho : r.2[i]? = some r.2[i] := List.getElem?_eq_getElem (by omega)
    obtain ⟨l, h4, h5, h6⟩ := hs i m _ hm ho
    refine ⟨l, _, h4, ho, h6, ?_⟩
    rw [hfirst] at h5
    simp only [Option.map_some, Option.getD_some] at h5
    have hle : first.ts ≤ m.ts := by
      cases ms with
      | nil => cases hfirst
      | cons a ms =>
        cases hfirst
        cases i with
        | zero => simp at hm; rw [hm]
        | succ i =>
          rw [List.getElem?_cons_succ] at hm
          exact (List.pairwise_cons.mp hc.1).1 m (List.mem_of_getElem? hm)
    have h7 := Int.tdiv_eq_ediv_of_nonneg (show 0 ≤ m.ts - first.ts by omega) (b := 1000)
    rw [h7] at h5
    omega

/-- **C105 (size 0).** With batch size 0 the program never ends, if the log has a message. -/
theorem C105_endless (w : World) (files : Files) (c : Cfg) (hb : BuiltFrom w files c) (m : Measurement) (ms : List Measurement)
    (hms : JsonIn.getNavMessages files.log = .ok (m :: ms)) : main w files 0 = .endless := by
  rw [main_built hb, hms]
  rfl

/-- **C105 (a late message).** Why the log must be in time order: the client drops a message that is older than one
before it in its batch, but the program numbers the outputs as if it did not.  So the line that shows the output of
the third message carries the time of the second, and nothing is printed for the third. -/
theorem C105_late (h : ℝ) (c : Cfg) (s : State) (t : Track) (m1 m2 m3 : Measurement) (h12 : m2.ts < m1.ts) (h13 : m1.ts ≤ m3.ts)
    (s' : State) (outs : List (Output × DebugState)) (hr : navigate c s [m1, m3] = .ok (s', outs)) :
    ∃ o1 o3 l1 l2, outs = [o1, o3] ∧ runBatches h c s 0 t [[m1, m2, m3]] = .ok [l1, l2] ∧ Shows o1.1 l1 ∧ Shows o3.1 l2 ∧
      l2.time = (m2.ts - m1.ts).tdiv 1000 := by
  have hord : Ordered [m1, m3] := by simp [Ordered, h13]
  have hrec : records [m1, m2, m3] = [m1, m3] := by
    rw [records_eq]
    simp [accepted, h12, not_lt.mpr h13]
  have hr' : runs c s [m1, m3] = .ok (s', outs) := by rw [← hr, navigate_eq, records_ordered _ hord]
  have hlen := runs_length c s s' _ outs hr'
  match outs, hlen with
  | [o1, o3], _ =>
    have h1 : navigate c s [m1, m2, m3] = .ok (s', [o1, o3]) := by rw [navigate_eq, hrec, hr']
    simp only [runBatches]
    rw [h1]
    exact ⟨o1, o3, _, _, rfl, rfl, ⟨rfl, rfl, rfl, rfl, rfl, rfl⟩, ⟨rfl, rfl, rfl, rfl, rfl, rfl⟩, by simp⟩

/-- **C105 (time stamp 0).** Why the first time stamp must not be 0: the program takes 0 for "not yet known", so with
single-message batches the second message restarts the clock. -/
theorem C105_restart (h : ℝ) (c : Cfg) (s : State) (t : Track) (m1 m2 : Measurement) (h0 : m1.ts = 0) (h12 : m1.ts ≤ m2.ts)
    (s' : State) (outs : List (Output × DebugState)) (hr : navigate c s [m1, m2] = .ok (s', outs)) :
    (∃ l1 l2, runBatches h c s 0 t [[m1, m2]] = .ok [l1, l2] ∧ l2.time = m2.ts.tdiv 1000) ∧
    (∃ l1 l2, runBatches h c s 0 t [[m1], [m2]] = .ok [l1, l2] ∧ l2.time = 0) := by
  have hord : Ordered [m1, m2] := by simp [Ordered, h12]
  have hr' : runs c s ([m1] ++ [m2]) = .ok (s', outs) := by rw [← hr, navigate_eq, records_ordered _ hord]; rfl
  have hlen := runs_length c s s' _ outs hr'
  have hone : ∀ m : Measurement, Ordered [m] := fun m => by simp [Ordered]
  constructor
  · match outs, hlen with
    | [o1, o2], _ =>
      simp only [runBatches]
      rw [hr]
      refine ⟨_, _, rfl, ?_⟩
      simp [h0]
  · rw [runs_append] at hr'
    obtain ⟨r1, h1, h2⟩ := andThen_ok hr'
    obtain ⟨r2, h3, h4⟩ := andThen_ok h2
    have l1 := runs_length c _ _ _ _ h1
    have l2 := runs_length c _ _ _ _ h3
    obtain ⟨s1, os1⟩ := r1
    obtain ⟨s2, os2⟩ := r2
    match os1, os2, l1, l2 with
    | [o1], [o2], _, _ =>
      simp only [runBatches]
      rw [navigate_eq, records_ordered _ (hone m1), h1]
      simp only [andThen, printOutputs]
      rw [navigate_eq, records_ordered _ (hone m2), h3]
      simp only [andThen, printOutputs]
      refine ⟨_, _, rfl, ?_⟩
      simp [h0]

end Verif.Tool
