import Verif.Track.Spec
import Verif.Floors.Lemmas
import Verif.Nav.ZoneProps
import Verif.Smooth.AbProps

/-!
# Helper lemmas for C123
-/

namespace Verif.Track

open Verif.Levels Verif.Nav
open Verif.Geo (XYPoint)
open Verif.Knn (Result)
open Verif.Smooth

/-! ## Specification -/

theorem fixAt_unique {lv : Level} {win : List RadioMeasurement} {p q : XYPoint} (hp : FixAt lv win p) (hq : FixAt lv win q) : p = q := by
  obtain ⟨b, t, h1, h2, h3, -⟩ := hp
  obtain ⟨b', t', g1, g2, g3, -⟩ := hq
  have := strongest_unique h1 g1
  subst this
  rw [h2] at g2
  cases g2
  rw [h3, g3]

theorem fixes_nil (lv : Level) : fixes lv [] = [] := rfl

theorem fixes_snoc (lv : Level) (ws : List (Int × List RadioMeasurement)) (t0 : Int) (win : List RadioMeasurement) :
    (∀ p, FixAt lv win p → fixes lv (ws ++ [(t0, win)]) = fixes lv ws ++ [⟨t0, p⟩]) ∧
    ((¬ ∃ p, FixAt lv win p) → fixes lv (ws ++ [(t0, win)]) = fixes lv ws) := by
  unfold fixes
  refine ⟨fun p hp => ?_, fun h => ?_⟩
  · have h : ∃ p, FixAt lv win p := ⟨p, hp⟩
    rw [List.filterMap_append, List.filterMap_cons, List.filterMap_nil, dif_pos h, fixAt_unique h.choose_spec hp]
  · rw [List.filterMap_append, List.filterMap_cons, List.filterMap_nil, dif_neg h, List.append_nil]

theorem track_snoc (cs : CommonSettings) (allowed : ℝ → ℝ → Prop) (fs : List Fix) (f : Fix) :
    track cs allowed (fs ++ [f]) = match fs with
      | [] => some (Motion.rest f)
      | [_] => some (Motion.rest f)
      | _ :: _ :: _ => (track cs allowed fs).map (fun k => k.follow cs allowed f) := by
  rcases fs with - | ⟨a, - | ⟨b, fs⟩⟩
  · rfl
  · rfl
  · show some (List.foldl (Motion.follow cs allowed) (Motion.rest b) (fs ++ [f])) = some _
    rw [List.foldl_append]
    rfl

theorem track_some (cs : CommonSettings) (allowed : ℝ → ℝ → Prop) {fs : List Fix} (h : fs ≠ []) : ∃ k, track cs allowed fs = some k := by
  rcases fs with - | ⟨a, - | ⟨b, fs⟩⟩
  · exact absurd rfl h
  · exact ⟨_, rfl⟩
  · exact ⟨_, rfl⟩

theorem follow_time (cs : CommonSettings) (allowed : ℝ → ℝ → Prop) (k : Motion) (f : Fix) : (k.follow cs allowed f).time = f.time := by
  unfold Motion.follow
  dsimp only
  split_ifs <;> rfl

theorem track_time (cs : CommonSettings) (allowed : ℝ → ℝ → Prop) (fs : List Fix) (f : Fix) {k : Motion}
    (h : track cs allowed (fs ++ [f]) = some k) : k.time = f.time := by
  rw [track_snoc] at h
  rcases fs with - | ⟨a, - | ⟨b, fs⟩⟩
  · have h : some (Motion.rest f) = some k := h
    rw [Option.some.injEq] at h; rw [← h]; rfl
  · have h : some (Motion.rest f) = some k := h
    rw [Option.some.injEq] at h; rw [← h]; rfl
  · dsimp only at h
    obtain ⟨k', -, h2⟩ := Option.map_eq_some_iff.mp h
    rw [← h2]
    exact follow_time _ _ _ _

/-! ## The smoother -/

/-- The state of the smoother after the fixes `fs`. -/
structure Holds (cs : CommonSettings) (allowed : ℝ → ℝ → Prop) (lv : Level) (fs : List Fix) (s : AbState) : Prop where
  called : s.wasCalled = decide (2 ≤ fs.length)
  level : fs ≠ [] → s.position.levelId = lv.id ∧ s.position.isEmpty = false ∧ s.position.provider = .INDOOR
  motion : ∀ k, track cs allowed fs = some k → s.position.ts = k.time ∧ s.position.toXY = k.place ∧ s.speedX = k.speed.x ∧ s.speedY = k.speed.y

theorem params (cs : CommonSettings) (h : cs.useAccuracyForSmoothing = false) (s : AbState) (pos : Position) :
    abGain (abParams cs) s pos = weight cs := by
  unfold abGain abParams weight MIN_ALPHA MAX_ALPHA
  simp only [h]
  norm_num
  ring

theorem weight_lt (cs : CommonSettings) : weight cs < 2 := by
  unfold weight
  have : 0 ≤ min 1 (max 0 cs.smoothing) := le_min zero_le_one (le_max_left _ _)
  linarith

/-- A new fix. -/
theorem holds_next {cs : CommonSettings} (hacc : cs.useAccuracyForSmoothing = false) {allowed : ℝ → ℝ → Prop} {lv : Level} {fs : List Fix}
    {s : AbState} (h : Holds cs allowed lv fs s) (hne : fs ≠ []) {q : Position} (hq : q.levelId = lv.id ∧ q.isEmpty = false ∧ q.provider = .INDOOR)
    (hts : s.position.ts < q.ts) :
    let r := abSmooth (abParams cs) allowed s q
    Holds cs allowed lv (fs ++ [⟨q.ts, q.toXY⟩]) r.2 ∧ r.1 = r.2.position := by
  intro r
  have hst := (C41_state (abParams cs) allowed s q).1
  refine ⟨?_, hst.symm⟩
  have hg := params cs hacc s q
  obtain ⟨n1, n2⟩ := abSmooth_newer (abParams cs) allowed s q hts (by rw [hg]; exact weight_lt cs)
  rw [hg] at n1 n2
  have hlen : decide (2 ≤ (fs ++ [(⟨q.ts, q.toXY⟩ : Fix)]).length) = true := by
    have := List.length_pos_iff.mpr hne
    simp only [List.length_append, List.length_singleton, decide_eq_true_eq]
    omega
  have raw : abSmooth (abParams cs) allowed s q = (q, ⟨true, 0, 0, q⟩) →
      track cs allowed (fs ++ [⟨q.ts, q.toXY⟩]) = some (Motion.rest ⟨q.ts, q.toXY⟩) → Holds cs allowed lv (fs ++ [⟨q.ts, q.toXY⟩]) r.2 := by
    intro e ht
    simp only [r]
    rw [e]
    refine ⟨hlen.symm, fun _ => hq, fun k hk => ?_⟩
    rw [ht, Option.some.injEq] at hk
    rw [← hk]
    exact ⟨rfl, rfl, rfl, rfl⟩
  rcases fs with - | ⟨a, - | ⟨b, fs⟩⟩
  · exact absurd rfl hne
  · refine raw (n1 (Or.inl ?_)) rfl
    rw [h.called]; rfl
  · obtain ⟨k, hk⟩ := track_some cs allowed (fs := a :: b :: fs) (by simp)
    obtain ⟨k1, k2, k3, k4⟩ := h.motion k hk
    have hw : s.wasCalled = true := by rw [h.called]; simp
    have ht : track cs allowed ((a :: b :: fs) ++ [⟨q.ts, q.toXY⟩]) = some (k.follow cs allowed ⟨q.ts, q.toXY⟩) := by
      rw [track_snoc, hk]; rfl
    have kx : s.position.x = k.place.x := congrArg (·.x) k2
    have ky : s.position.y = k.place.y := congrArg (·.y) k2
    have hel : elapsed s q = ((q.ts - k.time : Int) : ℝ) / 1000 := by unfold elapsed; rw [k1]
    have hpr : prediction s q = ⟨k.place.x + k.speed.x * (((q.ts - k.time : Int) : ℝ) / 1000), k.place.y + k.speed.y * (((q.ts - k.time : Int) : ℝ) / 1000)⟩ := by
      unfold prediction; rw [hel, kx, ky, k3, k4]
    by_cases hr : TakenRaw (abParams cs) allowed s q (weight cs)
    · refine raw (n1 hr) ?_
      rw [ht, Option.some.injEq]
      rcases hr with hr | hr
      · rw [hw] at hr; cases hr
      · rw [hel] at hr
        unfold correctedSpeed between at hr
        rw [hel, hpr, k3, k4] at hr
        unfold Motion.follow
        exact if_pos hr
    · obtain ⟨out, e, o1, o2, o3, o4, o5, -⟩ := n2 hr
      simp only [r]
      rw [e]
      refine ⟨by rw [hlen]; exact hw, fun _ => ⟨o2.trans hq.1, o4.trans hq.2.1, o5.trans hq.2.2⟩, fun k' hk' => ?_⟩
      rw [ht, Option.some.injEq] at hk'
      have hf : k.follow cs allowed ⟨q.ts, q.toXY⟩ = ⟨q.ts, between (prediction s q) q.toXY (weight cs), correctedSpeed s q (weight cs)⟩ := by
        unfold Motion.follow
        dsimp only
        rw [if_neg]
        · unfold correctedSpeed between
          rw [hel, hpr, k3, k4]
          rfl
        · intro hh
          refine hr (Or.inr ?_)
          rw [hel]
          unfold correctedSpeed between
          rw [hel, hpr, k3, k4]
          exact hh
      rw [← hk', hf]
      exact ⟨o3, o1, rfl, rfl⟩

/-! ## The post-processor -/

/-- The post-processor after the fixes `fs`. -/
structure Follows (cs : CommonSettings) (allowed : ℝ → ℝ → Prop) (lv : Level) (fs : List Fix) (s : Post.PostState) : Prop where
  smoother : ∃ st, s.smoother = .ab (abParams cs) st ∧ Holds cs allowed lv fs st
  level : s.lastOut.levelId = if fs = [] then "" else lv.id

theorem follows_init (cs : CommonSettings) (h : cs.useAbFilter = true) (allowed : ℝ → ℝ → Prop) (lv : Level) :
    Follows cs allowed lv [] (Post.postInit cs) := by
  refine ⟨⟨abInit, ?_, rfl, fun h => absurd rfl h, fun k hk => by cases hk⟩, rfl⟩
  unfold Post.postInit
  simp only [h, if_true]

/-- The post-processor shows the motion of the fixes. -/
theorem follows_step {cs : CommonSettings} (hp : Smoothed cs) {allowed : ℝ → ℝ → Prop} {lv : Level} (hid : lv.id ≠ "") {fs : List Fix}
    {s : Post.PostState} (hs : Follows cs allowed lv fs s) (fused : Position)
    (hq : fused.isEmpty = false → fused.levelId = lv.id ∧ fused.provider = .INDOOR)
    (ts lm : Int) {p : Position × Post.PostState} (h : Post.getProcessedPosition cs allowed s fused ts lm lv = some p)
    (hk : ∀ k, track cs allowed fs = some k → k.time ≤ fused.ts) :
    p.2.indoorPos = s.indoorPos ∧
    (fused.isEmpty = false ∧ Estim.Box.Covers lv.geometry.boundingBox fused.toXY ∧ ts - fused.ts < ⌊1000 * cs.deadReckoningTime⌋ →
      ∃ fs' k, (fs' = fs ++ [⟨fused.ts, fused.toXY⟩] ∨ fs' = fs) ∧ (fs' = fs ↔ ∃ k, track cs allowed fs = some k ∧ k.time = fused.ts) ∧
        Follows cs allowed lv fs' p.2 ∧ track cs allowed fs' = some k ∧ p.1.isEmpty = false ∧ p.1.levelId = lv.id ∧ p.1.provider = .INDOOR ∧
        p.1.deviationM = s.indoorPos.deviationM ∧ p.1.toXY = shown lv.geometry.boundingBox k.place) ∧
    (¬ (fused.isEmpty = false ∧ Estim.Box.Covers lv.geometry.boundingBox fused.toXY ∧ ts - fused.ts < ⌊1000 * cs.deadReckoningTime⌋) →
        p.1 = Position.default ∧ Follows cs allowed lv fs p.2) := by
  have hd : Post.toLongLong (1000 * cs.deadReckoningTime) = ⌊1000 * cs.deadReckoningTime⌋ :=
    toLongLong_eq (by have := hp.reckoning; linarith)
  have hin : Post.isInsideMap cs fused lv ↔ Estim.Box.Covers lv.geometry.boundingBox fused.toXY := by
    unfold Post.isInsideMap; rw [hp.outside]; simp
  unfold Post.getProcessedPosition at h
  dsimp only at h
  rw [hd] at h
  generalize hs1 : (if lm > 0 then { s with lastStepTs := lm } else s) = s1 at h
  have hind : s1.indoorPos = s.indoorPos := by rw [← hs1]; split_ifs <;> rfl
  have hfol : Follows cs allowed lv fs s1 := by
    have e1 : s1.smoother = s.smoother := by rw [← hs1]; split_ifs <;> rfl
    have e2 : s1.lastOut = s.lastOut := by rw [← hs1]; split_ifs <;> rfl
    exact ⟨by rw [e1]; exact hs.smoother, by rw [e2]; exact hs.level⟩
  by_cases he : fused.isEmpty = true
  · rw [if_pos he] at h
    cases h
    exact ⟨hind, fun h => by rw [he] at h; exact absurd h.1 (by simp), fun _ => ⟨rfl, hfol⟩⟩
  rw [if_neg he] at h
  have he' : fused.isEmpty = false := by simpa using he
  by_cases hb : Estim.Box.Covers lv.geometry.boundingBox fused.toXY
  swap
  · rw [if_pos (by rw [hin]; exact hb)] at h
    cases h
    exact ⟨hind, fun h => absurd h.2.1 hb, fun _ => ⟨rfl, hfol⟩⟩
  rw [if_neg (by rw [hin]; simpa using hb)] at h
  by_cases ht : ts - fused.ts < ⌊1000 * cs.deadReckoningTime⌋
  swap
  · rw [if_pos (by omega)] at h
    cases h
    exact ⟨hind, fun h => absurd h.2.2 ht, fun _ => ⟨rfl, hfol⟩⟩
  rw [if_neg (by omega)] at h
  obtain ⟨q1, q2⟩ := hq he'
  obtain ⟨⟨st, hsm, hho⟩, hlv⟩ := hfol
  -- the smoother
  have key : ∃ fs' r, Post.smoothing cs allowed s1 fused ts = some (r.position, { s1 with smoother := .ab (abParams cs) r }) ∧
      (fs' = fs ++ [⟨fused.ts, fused.toXY⟩] ∨ fs' = fs) ∧ (fs' = fs ↔ ∃ k, track cs allowed fs = some k ∧ k.time = fused.ts) ∧ fs' ≠ [] ∧
      Holds cs allowed lv fs' r := by
    unfold Post.smoothing
    simp only [hp.smoothing, hp.timeSmoothing, if_true, Bool.false_eq_true, if_false, hsm, q1, hlv]
    by_cases hnil : fs = []
    · subst hnil
      rw [if_pos rfl, if_pos (Ne.symm hid)]
      refine ⟨[⟨fused.ts, fused.toXY⟩], abReset st fused, ?_, Or.inl rfl, ?_, by simp, ?_⟩
      · unfold Post.Smoother.reset Post.Smoother.smooth
        dsimp only
        rw [C41_not_newer (abParams cs) allowed (abReset st fused) fused le_rfl]
        rfl
      · constructor
        · intro h; simp at h
        · rintro ⟨k, hk, -⟩; cases hk
      · refine ⟨hho.called, fun _ => ⟨q1, he', q2⟩, fun k hk => ?_⟩
        have hk : some (Motion.rest ⟨fused.ts, fused.toXY⟩) = some k := hk
        rw [Option.some.injEq] at hk
        rw [← hk]
        exact ⟨rfl, rfl, rfl, rfl⟩
    · rw [if_neg hnil, if_neg (by simp)]
      obtain ⟨k, hk'⟩ := track_some cs allowed hnil
      obtain ⟨k1, -⟩ := hho.motion k hk'
      have hle := hk k hk'
      unfold Post.Smoother.smooth
      dsimp only
      rcases lt_or_eq_of_le hle with hlt | heq
      · obtain ⟨n1, n2⟩ := holds_next hp.accuracy hho hnil ⟨q1, he', q2⟩ (by rw [k1]; exact hlt)
        refine ⟨_, _, ?_, Or.inl rfl, ?_, by simp, n1⟩
        · rw [n2]; rfl
        · constructor
          · intro h; simp at h
          · rintro ⟨k', e1, e2⟩
            rw [hk', Option.some.injEq] at e1
            rw [← e1] at e2
            omega
      · refine ⟨fs, st, ?_, Or.inr rfl, ?_, hnil, hho⟩
        · rw [C41_not_newer (abParams cs) allowed st fused (by rw [k1]; exact heq.ge)]
          rfl
        · exact ⟨fun _ => ⟨k, hk', heq⟩, fun _ => rfl⟩
  obtain ⟨fs', r, hsmo, hfs, hiff, hfne, hr⟩ := key
  rw [hsmo, Option.bind_some] at h
  have hto : ∀ (u : Post.PostState) (z : Position), Post.takeOver cs u z ts = { u with lastOut := { z with ts := ts, deviationM := u.indoorPos.deviationM } } := by
    intro u z
    unfold Post.takeOver
    simp [hp.stops]
  have hsn : ∀ q, Post.snapToGraph cs lv q = some q := by
    intro q
    unfold Post.snapToGraph
    simp [hp.graph]
  dsimp only at h
  rw [hto, hsn, Option.map_some, Option.some.injEq] at h
  rw [← h]
  obtain ⟨k, hk'⟩ := track_some cs allowed hfne
  obtain ⟨-, k2, -⟩ := hr.motion k hk'
  obtain ⟨l1, l2, l3⟩ := hr.level hfne
  refine ⟨hind, fun _ => ⟨fs', k, hfs, hiff, ⟨⟨r, rfl, hr⟩, ?_⟩, hk', ?_, ?_, ?_, ?_, ?_⟩, fun h => absurd ⟨he', hb, ht⟩ h⟩
  · rw [if_neg hfne]; exact l1
  · exact l2
  · exact l1
  · exact l3
  · show s1.indoorPos.deviationM = _; rw [hind]
  · rw [← k2]; rfl

end Verif.Track
