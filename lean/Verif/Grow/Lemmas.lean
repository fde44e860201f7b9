import Verif.Grow.Spec
import Verif.Nav.Examples

/-!
# Lemmas about clients whose map grows
-/

namespace Verif.Grow

open Verif.Levels
open Verif.Knn (Result)
open Verif.Nav
open Verif.Post

/-! ## Path loss parameters -/

theorem find_without (old : List (String × Estim.LevelSettings)) (new : List Level) (id : String) :
    StdMap.find? (withoutParameters old new) id =
      if id ∈ new.map Level.id then some ⟨0, 0⟩ else StdMap.find? old id := by
  unfold withoutParameters
  induction new using List.reverseRecOn with
  | nil => simp
  | append_singleton new l ih =>
    rw [List.foldl_append, List.foldl_cons, List.foldl_nil, StdMap.find?_set, ih]
    by_cases h : l.id = id
    · rw [if_pos h, if_pos (by simp [h])]
    · rw [if_neg h]
      by_cases h2 : id ∈ new.map Level.id
      · rw [if_pos h2, if_pos (by rw [List.map_append]; exact List.mem_append_left _ h2)]
      · rw [if_neg h2, if_neg]
        rw [List.map_append, List.mem_append]
        rintro (h3 | h3)
        · exact h2 h3
        · simp at h3; exact h h3.symm

theorem params_none {settings : List (String × Estim.LevelSettings)} {ls : List Level} {A B : List (String × ℝ)}
    (h : Estim.zoneParams settings (collect ls) = some (A, B)) {id : String} (hid : id ∉ ls.map Level.id) :
    StdMap.find? A id = none ∧ StdMap.find? B id = none := by
  unfold Estim.zoneParams at h
  rw [collect_levels] at h
  induction ls using List.reverseRecOn generalizing A B with
  | nil =>
    simp at h
    rw [h.1, h.2]
    simp
  | append_singleton ls l ih =>
    rw [List.map_append, List.mem_append, not_or] at hid
    rw [List.foldlM_append, Option.bind_eq_bind, Option.bind_eq_some_iff] at h
    obtain ⟨⟨A1, B1⟩, h1, h2⟩ := h
    obtain ⟨i1, i2⟩ := ih h1 hid.1
    simp only [List.foldlM_cons, List.foldlM_nil] at h2
    cases hs : StdMap.find? settings l.id with
    | none => rw [hs] at h2; simp at h2
    | some p =>
      rw [hs] at h2
      simp at h2
      have hne : ¬ l.id = id := by
        intro h; exact hid.2 (by simp [h])
      rw [← h2.1, ← h2.2, StdMap.find?_set, StdMap.find?_set, if_neg hne, if_neg hne]
      exact ⟨i1, i2⟩

/-- Both give the same parameters to every floor. -/
theorem params_grown {se : List (String × Estim.LevelSettings)} {ls new : List Level} {A B : List (String × ℝ)}
    (hn : ((ls ++ new).map Level.id).Nodup) (h : Estim.zoneParams se (collect ls) = some (A, B)) :
    ∃ A' B', Estim.zoneParams (withoutParameters se new) (collect (ls ++ new)) = some (A', B') ∧
      ∀ id, (StdMap.find? A' id).getD 0 = (StdMap.find? A id).getD 0 ∧
        (StdMap.find? B' id).getD 0 = (StdMap.find? B id).getD 0 := by
  have hdis : ∀ id, id ∈ ls.map Level.id → id ∉ new.map Level.id := by
    rw [List.map_append] at hn
    intro id h1 h2
    exact (List.nodup_append.mp hn).2.2 id h1 id h2 rfl
  cases hz : Estim.zoneParams (withoutParameters se new) (collect (ls ++ new)) with
  | none =>
    obtain ⟨l, hl, hno⟩ := (Estim.C33_params _ _).1.mp hz
    rw [collect_levels] at hl
    rw [find_without] at hno
    split_ifs at hno with hm
    rcases List.mem_append.mp hl with hl | hl
    · have := (Estim.C33_params se (collect ls)).1.mpr ⟨l, by rw [collect_levels]; exact hl, hno⟩
      rw [this] at h
      cases h
    · exact absurd (List.mem_map_of_mem hl) hm
  | some ab =>
    obtain ⟨A', B'⟩ := ab
    refine ⟨A', B', rfl, ?_⟩
    intro id
    by_cases h1 : id ∈ ls.map Level.id
    · obtain ⟨l, hl, rfl⟩ := List.mem_map.mp h1
      obtain ⟨s, s1, s2, s3⟩ := (Estim.C33_params se (collect ls)).2 A B h l (by rw [collect_levels]; exact hl)
      obtain ⟨s', t1, t2, t3⟩ := (Estim.C33_params _ _).2 A' B' hz l (by rw [collect_levels]; exact List.mem_append_left _ hl)
      rw [find_without, if_neg (hdis _ h1), s1, Option.some.injEq] at t1
      rw [s2, s3, t2, t3, t1]
      exact ⟨rfl, rfl⟩
    · obtain ⟨n1, n2⟩ := params_none h h1
      rw [n1, n2]
      by_cases h2 : id ∈ new.map Level.id
      · obtain ⟨l, hl, rfl⟩ := List.mem_map.mp h2
        obtain ⟨s', t1, t2, t3⟩ := (Estim.C33_params _ _).2 A' B' hz l (by rw [collect_levels]; exact List.mem_append_right _ hl)
        rw [find_without, if_pos h2, Option.some.injEq] at t1
        rw [t2, t3, ← t1]
        exact ⟨rfl, rfl⟩
      · obtain ⟨m1, m2⟩ := params_none hz (id := id) (by rw [List.map_append, List.mem_append]; tauto)
        rw [m1, m2]
        exact ⟨rfl, rfl⟩

/-! ## The same calls -/

theorem step_congr {c c' : Cfg} (h : c = { c' with indoor := c.indoor })
    (hi : ∀ p l t r, indoorPosition c p l t r = indoorPosition c' p l t r) (s : State) (m : Measurement) :
    step c s m = step c' s m := by
  have h1 : sense c = sense c' := by rw [h]; rfl
  have h2 : ∀ x, timedOutLevel c x = timedOutLevel c' x := by intro x; rw [h]; rfl
  have h3 : ∀ x l, report c x l = report c' x l := by intro x l; rw [h]; rfl
  have e1 : c.levels = c'.levels := by rw [h]
  have e2 : c.cs = c'.cs := by rw [h]
  have e3 : c.env = c'.env := by rw [h]
  have h4 : ∀ x l, locateIndoor c s x l = locateIndoor c' s x l := by
    intro x l
    unfold locateIndoor finalAzimuth
    rw [hi, e2, e3]
  have h5 : ∀ x, locate c s x = locate c' s x := by
    intro x
    unfold locate
    rw [h2, e1]
    have : locateIndoor c s x = locateIndoor c' s x := funext (h4 x)
    rw [this]
  unfold step
  rw [h1]
  congr 1
  funext x
  rw [h5]
  congr 1
  funext l
  rw [h3]

theorem runs_congr {c c' : Cfg} (h : ∀ s m, step c s m = step c' s m) (s : State) (ms : List Measurement) :
    runs c s ms = runs c' s ms := by
  induction ms generalizing s with
  | nil => rfl
  | cons m ms ih =>
    change andThen (step c s m) _ = andThen (step c' s m) _
    rw [h]
    congr 1
    funext r
    rw [ih]

/-! ## The invariant in a larger map -/

theorem tame_more {ls ls' : List Level} (hs : ls ⊆ ls') {p : Position} (h : Tame ls p) : Tame ls' p :=
  ⟨h.heading, fun he => ⟨by obtain ⟨⟨l, hl, e⟩, -⟩ := h.level he; exact ⟨l, hs hl, e⟩, (h.level he).2⟩⟩

theorem post_more {cs : CommonSettings} {ls ls' : List Level} (hs : ls ⊆ ls') {s : PostState} (h : PostOk cs ls s) : PostOk cs ls' s := by
  refine ⟨tame_more hs h.indoor, tame_more hs h.outdoor, tame_more hs h.last, tame_more hs h.prev, tame_more hs h.next, ?_⟩
  have := h.smoother
  cases hsm : s.smoother with
  | ab P st => rw [hsm] at this; exact tame_more hs this
  | ls P k st => rw [hsm] at this; exact this

theorem inv_more {ls ls' : List Level} {c c' : Cfg} (hs : ls ⊆ ls') (hcs : c'.cs = c.cs) (hf : c'.fusion = c.fusion)
    (hk : c.cs.useAlgorithm ≠ .KNN) {s : State} (h : Inv ls c s) : Inv ls' c' s := by
  have hl : ∀ id, LevelOk ls c id → LevelOk ls' c' id := by
    rintro id (h | ⟨⟨l, hl, e⟩, -⟩)
    · exact Or.inl h
    · exact Or.inr ⟨⟨l, hs hl, e⟩, fun h => absurd (hcs ▸ h) hk⟩
  refine ⟨by rw [hf]; exact h.fusion, ⟨hl _ h.level.history, hl _ h.level.barometer⟩, tame_more hs h.indoor, by rw [hcs]; exact h.buffer,
    tame_more hs h.outdoor, by rw [hcs]; exact post_more hs h.post, tame_more hs h.position, h.prevGyro, h.prevHeading⟩

theorem goodMap_left {ls new : List Level} (h : GoodMap (ls ++ new)) : GoodMap ls where
  nodup := by
    have := h.nodup
    rw [List.map_append] at this
    exact (List.nodup_append.mp this).1
  named l hl := h.named l (List.mem_append_left _ hl)
  radiomap l hl := h.radiomap l (List.mem_append_left _ hl)
  graph l hl := h.graph l (List.mem_append_left _ hl)

/-! ## The outputs of a call -/

theorem proper_runs {ls : List Level} {c : Cfg} (hc : Client ls c) {s s' : State} {ms : List Measurement} {outs : List (Output × DebugState)}
    (hi : Inv ls c s) (h : runs c s ms = .ok (s', outs)) : ∀ o ∈ outs, Proper ls o.1 := by
  induction ms using List.reverseRecOn generalizing s' outs with
  | nil => cases h; intro o ho; cases ho
  | append_singleton ms m ih =>
    obtain ⟨s1, outs1, r, h1, h2, h3⟩ := runs_snoc h
    intro o ho
    rw [h3] at ho
    rcases List.mem_append.mp ho with ho | ho
    · exact ih h1 o ho
    · rw [List.mem_singleton] at ho
      subst ho
      obtain ⟨sx, ox, hx1, hx2⟩ := runs_defined hc hi ms
      rw [h1] at hx1
      cases hx1
      obtain ⟨x, l, hst, -⟩ := step_parts hc hx2 h2
      obtain ⟨hsh, hor, herr⟩ := stepped_shows hc hst
      rcases hsh with ⟨he, hne, hb⟩ | ⟨he, hok, lv, hlv, hid, e1, e2, e3, e4, e5⟩
      · right
        refine ⟨?_, hb⟩
        have hs := herr he
        rw [hs]
        rcases hst.usual with e | e | e | e <;> rw [e] <;> simp
      · left
        refine ⟨hok, lv, hlv, s'.position.toXY, s'.position.deviationM, _, s'.position.provider, by rw [e1, hid], ?_, e4,
          hor hok, (Fusion.C54_range _).1, (Fusion.C54_range _).2.1, e5, ?_⟩
        · rw [e2, e3]
        · exact (hst.inv.position.level he).2

end Verif.Grow
