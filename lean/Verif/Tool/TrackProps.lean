import Verif.Tool.Props

/-!
# C107: the dead-reckoning track the replay program prints
-/

namespace Verif.Tool

open Verif.Knn (Result)
open Verif.Nav

/-! ## Specification -/

/-- The output is one that can move the track: it has a position and a step length other than 0. -/
def Steps (o : Output × DebugState) : Prop := o.1.status = .OK ∧ o.2.stepLen ≠ 0

/-- The line shows the track at the point `(x, y)`. -/
def At (x y : ℝ) (l : Line) : Prop := l.pdrX = x ∧ l.pdrY = y

/-! ## Lines and outputs -/

/-- The track after an output. -/
noncomputable def upd (h : ℝ) (t : Track) (o : Output × DebugState) : Track :=
  if o.1.status = .OK then buildPdrTrack t o.2.stepLen h else t

/-- The lines for the outputs, starting at a track. -/
def Prints (h : ℝ) : Track → List (Output × DebugState) → List Line → Prop
  | _, [], [] => True
  | t, o :: os, l :: ls => Shows o.1 l ∧ At (upd h t o).x (upd h t o).y l ∧ Prints h (upd h t o) os ls
  | _, _, _ => False

theorem Prints.append {h : ℝ} {t : Track} {os os' : List (Output × DebugState)} {ls ls' : List Line} (h1 : Prints h t os ls)
    (h2 : Prints h (os.foldl (upd h) t) os' ls') : Prints h t (os ++ os') (ls ++ ls') := by
  induction os generalizing t ls with
  | nil =>
    cases ls with
    | nil => exact h2
    | cons l ls => exact h1.elim
  | cons o os ih =>
    cases ls with
    | nil => exact h1.elim
    | cons l ls => exact ⟨h1.1, h1.2.1, ih h1.2.2 h2⟩

theorem Prints.length {h : ℝ} {t : Track} {os : List (Output × DebugState)} {ls : List Line} (h1 : Prints h t os ls) :
    ls.length = os.length := by
  induction os generalizing t ls with
  | nil =>
    cases ls with
    | nil => rfl
    | cons l ls => exact h1.elim
  | cons o os ih =>
    cases ls with
    | nil => exact h1.elim
    | cons l ls => rw [List.length_cons, List.length_cons, ih h1.2.2]

theorem Prints.get {h : ℝ} {t : Track} {os : List (Output × DebugState)} {ls : List Line} (h1 : Prints h t os ls)
    (i : ℕ) (l : Line) (hl : ls[i]? = some l) :
    ∃ o, os[i]? = some o ∧ Shows o.1 l ∧ At ((os.take (i + 1)).foldl (upd h) t).x ((os.take (i + 1)).foldl (upd h) t).y l := by
  induction os generalizing t ls i with
  | nil =>
    cases ls with
    | nil => simp at hl
    | cons l ls => exact h1.elim
  | cons o os ih =>
    cases ls with
    | nil => exact h1.elim
    | cons l' ls =>
      cases i with
      | zero =>
        simp only [List.getElem?_cons_zero, Option.some.injEq] at hl
        subst hl
        exact ⟨o, rfl, h1.1, h1.2.1⟩
      | succ i =>
        simp only [List.getElem?_cons_succ] at hl ⊢
        exact ih h1.2.2 i hl

theorem printOutputs_prints {h : ℝ} {first : Int} {t t' : Track} {ms : List Measurement} {os : List (Output × DebugState)}
    {ls : List Line} (hp : printOutputs h first t ms os = .ok (t', ls)) : Prints h t os ls ∧ t' = os.foldl (upd h) t := by
  induction os generalizing t ms ls with
  | nil =>
    cases ms <;> simp only [printOutputs, Result.ok.injEq, Prod.mk.injEq] at hp <;> obtain ⟨rfl, rfl⟩ := hp <;>
      exact ⟨trivial, rfl⟩
  | cons o os ih =>
    cases ms with
    | nil => simp only [printOutputs] at hp; cases hp
    | cons m ms =>
      simp only [printOutputs] at hp
      obtain ⟨r, h1, h2⟩ := andThen_ok hp
      obtain ⟨t1, ls1⟩ := r
      cases h2
      obtain ⟨h3, h4⟩ := ih h1
      exact ⟨⟨⟨rfl, rfl, rfl, rfl, rfl, rfl⟩, ⟨rfl, rfl⟩, h3⟩, h4⟩

/-- The lines of all batches show the outputs of all calls. -/
theorem runBatches_prints {h : ℝ} {c : Cfg} {s : State} {first : Int} {t : Track} {bs : List (List Measurement)} {lines : List Line}
    (hr : runBatches h c s first t bs = .ok lines) :
    ∃ s' outs, navigateAll c s bs = .ok (s', outs) ∧ Prints h t outs lines := by
  induction bs generalizing s first t lines with
  | nil =>
    simp only [runBatches, Result.ok.injEq] at hr
    subst hr
    exact ⟨s, [], rfl, trivial⟩
  | cons b bs ih =>
    cases b with
    | nil => simp only [runBatches] at hr; cases hr
    | cons m ms =>
      simp only [runBatches] at hr
      obtain ⟨⟨s1, outs1⟩, h1, h2⟩ := andThen_ok hr
      obtain ⟨⟨t1, ls1⟩, h3, h4⟩ := andThen_ok h2
      obtain ⟨ls2, h5, h6⟩ := andThen_ok h4
      cases h6
      obtain ⟨h7, h8⟩ := printOutputs_prints h3
      obtain ⟨s', outs2, h9, h10⟩ := ih h5
      dsimp only at h8
      refine ⟨s', outs1 ++ outs2, ?_, h7.append (by rw [← h8]; exact h10)⟩
      simp only [navigateAll]
      rw [h1]
      simp only [andThen]
      rw [h9]

/-! ## The track -/

open Classical in
/-- The track: it stays at the start until the first output that steps, goes there and stays. -/
theorem track_fold (h : ℝ) (os : List (Output × DebugState)) :
    os.foldl (upd h) Track.start =
      if h = 0 then Track.start
      else match os.find? (fun o => decide (Steps o)) with
        | none => Track.start
        | some o => ⟨o.2.stepLen * Real.cos h, o.2.stepLen * Real.sin h, o.2.stepLen, h⟩ := by
  have stay : ∀ (t : Track) (os : List (Output × DebugState)), t.prevHeading = h → os.foldl (upd h) t = t := by
    intro t os ht
    induction os with
    | nil => rfl
    | cons o os ih =>
      rw [List.foldl_cons]
      have : upd h t o = t := by
        have hb : buildPdrTrack t o.2.stepLen h = t := by
          unfold buildPdrTrack
          rw [if_neg (by rintro ⟨-, h2⟩; exact h2 ht.symm)]
        unfold upd
        rw [hb]
        split_ifs <;> rfl
      rw [this, ih]
  by_cases h0 : h = 0
  · rw [if_pos h0]
    exact stay _ _ h0.symm
  · rw [if_neg h0]
    induction os with
    | nil => rfl
    | cons o os ih =>
      rw [List.foldl_cons, List.find?_cons]
      by_cases hs : Steps o
      · simp only [hs, decide_true]
        have : upd h Track.start o = ⟨o.2.stepLen * Real.cos h, o.2.stepLen * Real.sin h, o.2.stepLen, h⟩ := by
          unfold upd buildPdrTrack Track.start
          rw [if_pos hs.1, if_pos ⟨hs.2, h0⟩]
          simp
        rw [this]
        exact stay _ _ rfl
      · simp only [hs, decide_false]
        have : upd h Track.start o = Track.start := by
          unfold upd
          split_ifs with hok
          · unfold buildPdrTrack
            rw [if_neg]
            rintro ⟨h2, -⟩
            exact hs ⟨hok, h2⟩
          · rfl
        rw [this]
        exact ih

/-- **C107 (track).** The program prints a dead-reckoning track that moves at most once.  With the outputs `outs` of
the calls of `navigate`: if the heading the client shows (a member that is never set) is 0, all lines show (0, 0).
Otherwise all lines before the first output with a position and a non-zero step length show (0, 0), and this line and all
after it show the point one such step away in the direction of the heading; what the walker does later changes nothing. -/
theorem C107_track (w : World) (files : Files) (n : Int) (lines : List Line) (h : main w files n = .returns 0 lines) :
    ∃ c bs s outs, BuiltFrom w files c ∧ navigateAll c (init c w.garbage) bs = .ok (s, outs) ∧
      JsonIn.getNavMessages files.log = .ok bs.flatten ∧ outs.length = lines.length ∧
      (w.heading = 0 → ∀ l ∈ lines, At 0 0 l) ∧
      (w.heading ≠ 0 → ∀ (k : ℕ) (o : Output × DebugState), outs[k]? = some o → Steps o →
        (∀ (j : ℕ) (o' : Output × DebugState), j < k → outs[j]? = some o' → ¬ Steps o') →
          ∀ (i : ℕ) (l : Line), lines[i]? = some l →
            (i < k → At 0 0 l) ∧
            (k ≤ i → At (o.2.stepLen * Real.cos w.heading) (o.2.stepLen * Real.sin w.heading) l)) ∧
      ((∀ o ∈ outs, ¬ Steps o) → ∀ l ∈ lines, At 0 0 l) := by
  classical
  obtain ⟨c, ms, bs, hb, hms, hbs, hrun⟩ := main_returns h
  have hfl : bs.flatten = ms := by
    by_cases hn : n = 0
    · by_cases he : ms = []
      · subst he; cases hbs; simp
      · rw [((C105_batches n ms).2).mpr ⟨hn, he⟩] at hbs; cases hbs
    · obtain ⟨bs', h1, h2, h3, -⟩ := (C105_batches n ms).1 hn
      rw [hbs] at h1; cases h1
      exact h2
  obtain ⟨s, outs, h1, h2⟩ := runBatches_prints hrun
  have hidle : (∀ o ∈ outs, ¬ Steps o) ∨ w.heading = 0 → ∀ l ∈ lines, At 0 0 l := by
    intro hcase l hl
    obtain ⟨i, hi⟩ := List.mem_iff_getElem?.mp hl
    obtain ⟨o, -, -, hat⟩ := h2.get i l hi
    rw [track_fold] at hat
    rcases hcase with hcase | hcase
    · rw [List.find?_eq_none.mpr (by
        intro o ho
        simpa using hcase o (List.mem_of_mem_take ho))] at hat
      split_ifs at hat <;> exact hat
    · rw [if_pos hcase] at hat
      exact hat
  refine ⟨c, bs, s, outs, hb, h1, by rw [hfl]; exact hms, h2.length.symm, fun h0 => hidle (Or.inr h0), ?_, fun h0 => hidle (Or.inl h0)⟩
  intro h0 k o hk hst hfirst i l hl
  obtain ⟨o', ho', -, hat⟩ := h2.get i l hl
  rw [track_fold, if_neg h0] at hat
  constructor
  · intro hik
    rw [List.find?_eq_none.mpr (by
      intro x hx
      obtain ⟨j, hj⟩ := List.mem_iff_getElem?.mp hx
      rw [List.getElem?_take] at hj
      split_ifs at hj with hji
      simpa using hfirst j x (by omega) hj)] at hat
    exact hat
  · intro hki
    have hf : (outs.take (i + 1)).find? (fun o => decide (Steps o)) = some o := by
      rw [List.find?_eq_some_iff_getElem]
      have hkl : k < outs.length := (List.getElem?_eq_some_iff.mp hk).1
      refine ⟨by simpa using hst, k, by rw [List.length_take]; have := (List.getElem?_eq_some_iff.mp ho').1; omega, ?_, ?_⟩
      · rw [List.getElem_take]
        exact (List.getElem?_eq_some_iff.mp hk).2
      · intro j hj
        rw [List.getElem_take]
        simpa using hfirst j _ hj (List.getElem?_eq_getElem (by omega))
    rw [hf] at hat
    exact hat

/-- Two outputs with a position and steps of 0.7 m and 0.8 m: the track moves with the first and not with the second. -/
example (first : Int) (m1 m2 : Measurement) (o : Output) (d1 d2 : DebugState) (ho : o.status = .OK) (h1 : d1.stepLen = 0.7)
    (h2 : d2.stepLen = 0.8) :
    ∃ t l1 l2, printOutputs 1 first Track.start [m1, m2] [(o, d1), (o, d2)] = .ok (t, [l1, l2]) ∧
      At (0.7 * Real.cos 1) (0.7 * Real.sin 1) l1 ∧ At (0.7 * Real.cos 1) (0.7 * Real.sin 1) l2 := by
  refine ⟨_, _, _, by simp only [printOutputs, andThen]; rfl, ?_, ?_⟩
  · norm_num [At, ho, buildPdrTrack, Track.start, h1]
  · norm_num [At, ho, buildPdrTrack, Track.start, h1, h2]

end Verif.Tool
