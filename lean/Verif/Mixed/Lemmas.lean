import Verif.Mixed.Spec
import Verif.Nav.ZoneProps
import Verif.Outdoor.Props

/-!
# The state of a client with zones and satellites on one floor
-/

namespace Verif.Mixed

open Verif.Levels Verif.Nav Verif.Estim
open Verif.Knn (Result)
open Verif.Geo (XYPoint)

theorem stored_snoc (lv : Level) (cs : CommonSettings) (a b : ℝ) (g : Garbage) (ms : List Measurement) (m : Measurement) :
    stored lv cs a b g (ms ++ [m]) = (stored lv cs a b g ms).after lv cs a b g ms m := by
  unfold stored
  rw [List.length_append, List.length_singleton, List.range_succ, List.foldl_append]
  have e : ∀ (l : List ℕ) (st : Store), (∀ k ∈ l, k < ms.length) →
      l.foldl (fun st k => (ms ++ [m])[k]?.elim st (st.after lv cs a b g ((ms ++ [m]).take k))) st =
      l.foldl (fun st k => ms[k]?.elim st (st.after lv cs a b g (ms.take k))) st := by
    intro l
    induction l with
    | nil => intro st _; rfl
    | cons k l ih =>
      intro st hl
      have hk := hl k (by simp)
      rw [List.foldl_cons, List.foldl_cons, List.getElem?_append_left hk, List.take_append_of_le_length (by omega)]
      exact ih _ (fun j hj => hl j (by simp [hj]))
  rw [e _ _ (fun k hk => List.mem_range.mp hk)]
  simp

theorem zoneFix_eq {lv : Level} {win : List RadioMeasurement} {id : String} {t : Transmitter XYZPoint} (h : Strongest win id)
    (ht : lv.transmitter id = some t) (a b : ℝ) (t0 : Int) :
    zoneFix lv a b t0 win = some ⟨⟨t.point.x, t.point.y⟩, Real.exp ((a - meanRssi win id) / (2 * b)) + 1, t0⟩ := by
  have hex : ∃ p : String × Transmitter XYZPoint, Strongest win p.1 ∧ lv.transmitter p.1 = some p.2 := ⟨(id, t), h, ht⟩
  unfold zoneFix
  rw [dif_pos hex]
  obtain ⟨h1, h2⟩ := hex.choose_spec
  have e1 : hex.choose.1 = id := strongest_unique h1 h
  rw [e1, ht] at h2
  have e2 : hex.choose.2 = t := (Option.some.inj h2).symm
  rw [e1, e2]

/-- A position of the model for a fix in store. -/
structure Holds (lv : Level) (prov : Provider) (k : Fix) (p : Position) : Prop where
  x : p.x = k.place.x
  y : p.y = k.place.y
  levelId : p.levelId = lv.id
  radius : p.deviationM = k.radius
  ts : p.ts = k.time
  isEmpty : p.isEmpty = false
  provider : p.provider = prov

/-- A position of the model that may be empty. -/
def HoldsFix (lv : Level) (prov : Provider) (p : Position) : Option Fix → Prop
  | none => p.isEmpty = true
  | some f => Holds lv prov f p

/-- A stored position of the model with its deviation. -/
def HoldsKept (lv : Level) (prov : Provider) (p : Position) (dev : ℝ) : Option Kept → Prop
  | none => p.isEmpty = true
  | some k => Holds lv prov k.toFix p ∧ dev = k.spread

theorem holds_prior {cs : CommonSettings} {lv : Level} {prov : Provider} {p q : Position} {dev : ℝ} {old : Option Kept} {f : Fix}
    (h : HoldsKept lv prov p dev old) (hq : Holds lv prov f q) :
    (Post.priorDev cs p q dev + q.deviationM) / 2 = (keep cs old f).spread := by
  unfold Post.priorDev keep
  dsimp only
  cases old with
  | none =>
    have hp : p.isEmpty = true := h
    rw [if_pos hp, hq.radius]
  | some k =>
    obtain ⟨h1, h2⟩ := h
    rw [h1.isEmpty, hq.radius, hq.ts, h1.ts, h2]
    simp

/-- The two stored positions after an update. -/
theorem fused_kept (cs : CommonSettings) {lv : Level} {s : Post.PostState} {z o : Option Kept} {i q : Position} {fi fo : Option Fix}
    (hz : HoldsKept lv .INDOOR s.indoorPos s.indoorDev z) (ho : HoldsKept lv .GNSS s.outdoorPos s.outdoorDev o)
    (hi : HoldsFix lv .INDOOR i fi) (hq : HoldsFix lv .GNSS q fo) (ts : Int) (st : NavigationStatus) :
    let r := (Post.fusePositions cs s ts i q st).2
    HoldsKept lv .INDOOR r.indoorPos r.indoorDev (store cs z fi) ∧ HoldsKept lv .GNSS r.outdoorPos r.outdoorDev (store cs o fo) := by
  intro r
  have hr : r = Post.fillOutdoor cs (Post.fillIndoor cs s i) q := rfl
  have h1 : (Post.fillIndoor cs s i).outdoorPos = s.outdoorPos ∧ (Post.fillIndoor cs s i).outdoorDev = s.outdoorDev ∧
      HoldsKept lv .INDOOR (Post.fillIndoor cs s i).indoorPos (Post.fillIndoor cs s i).indoorDev (store cs z fi) := by
    unfold Post.fillIndoor
    cases fi with
    | none =>
      have : i.isEmpty = true := hi
      rw [if_pos this]
      exact ⟨rfl, rfl, hz⟩
    | some f =>
      have hi' : Holds lv .INDOOR f i := hi
      rw [if_neg (by rw [hi'.isEmpty]; simp)]
      exact ⟨rfl, rfl, hi', holds_prior hz hi'⟩
  obtain ⟨e1, e2, e3⟩ := h1
  rw [hr]
  generalize Post.fillIndoor cs s i = s1 at *
  rw [← e1, ← e2] at ho
  unfold Post.fillOutdoor
  cases fo with
  | none =>
    have : q.isEmpty = true := hq
    rw [if_pos this]
    exact ⟨e3, ho⟩
  | some f =>
    have hq' : Holds lv .GNSS f q := hq
    rw [if_neg (by rw [hq'.isEmpty]; simp)]
    exact ⟨e3, hq', holds_prior ho hq'⟩

theorem delay_eq {lv : Level} {prov : Provider} {k : Kept} {p : Position} (h : Holds lv prov k.toFix p) (now : Int) :
    Post.delay now p = age now k := by
  unfold Post.delay age
  rw [h.ts]
  split_ifs with hc
  · rw [max_eq_right]
    have : (0 : ℝ) ≤ ((now - k.time : Int) : ℝ) := by exact_mod_cast sub_nonneg.mpr hc
    positivity
  · rw [max_eq_left]
    have : ((now - k.time : Int) : ℝ) ≤ 0 := by exact_mod_cast (by omega : now - k.time ≤ 0)
    linarith

/-- A position with a place shows a choice. -/
structure Chosen (lv : Level) (ch : Choice) (p : Position) : Prop where
  x : p.x = ch.place.x
  y : p.y = ch.place.y
  levelId : p.levelId = lv.id
  ts : p.ts = ch.time
  isEmpty : p.isEmpty = false
  provider : p.provider = ch.provider

theorem chosen_zone {lv : Level} {k : Kept} {p : Position} (h : Holds lv .INDOOR k.toFix p) : Chosen lv k.asZone p :=
  ⟨h.x, h.y, h.levelId, h.ts, h.isEmpty, h.provider⟩

theorem chosen_sat {lv : Level} {k : Kept} {p : Position} (h : Holds lv .GNSS k.toFix p) : Chosen lv k.asSat p :=
  ⟨h.x, h.y, h.levelId, h.ts, h.isEmpty, h.provider⟩

/-- The choice between the stored positions. -/
theorem fused_choice {cs : CommonSettings} (hg : cs.useGps = true) (hins : cs.useInstantGpsPosition = false) {lv : Level}
    {s : Post.PostState} {k : Kept} {o : Option Kept} {i q : Position} {closes : Prop} {st : NavigationStatus}
    (hz : HoldsKept lv .INDOOR s.indoorPos s.indoorDev (some k)) (ho : HoldsKept lv .GNSS s.outdoorPos s.outdoorDev o)
    (h1 : closes → i = s.indoorPos ∧ st = .OK) (h2 : ¬ closes → i.isEmpty = true) (ts : Int) :
    Chosen lv (choose cs closes ts k o) (Post.chooseFused cs s ts i q st) := by
  obtain ⟨z1, z2⟩ := hz
  have hpref : (cs.preferIndoorSolution = true ∧ i.isEmpty = false ∧ st = .OK) ↔ (cs.preferIndoorSolution = true ∧ closes) := by
    constructor
    · rintro ⟨a, b, -⟩
      refine ⟨a, ?_⟩
      by_contra hn
      rw [h2 hn] at b
      cases b
    · rintro ⟨a, b⟩
      obtain ⟨e1, e2⟩ := h1 b
      exact ⟨a, by rw [e1]; exact z1.isEmpty, e2⟩
  unfold Post.chooseFused choose
  rw [if_neg (by rw [hins]; simp)]
  by_cases hp : cs.preferIndoorSolution = true ∧ closes
  · rw [if_pos (hpref.mpr hp)]
    have e := (h1 hp.2).1
    cases o with
    | none => dsimp only; rw [e]; exact chosen_zone z1
    | some o => dsimp only; rw [if_pos hp, e]; exact chosen_zone z1
  · rw [if_neg (fun h => hp (hpref.mp h))]
    cases o with
    | none =>
      have : s.outdoorPos.isEmpty = true := ho
      rw [if_pos (Or.inr this)]
      exact chosen_zone z1
    | some o =>
      obtain ⟨o1, o2⟩ := ho
      rw [if_neg (by rw [hg, o1.isEmpty]; simp), if_neg (by rw [z1.isEmpty]; simp)]
      dsimp only
      rw [if_neg hp, delay_eq z1, delay_eq o1]
      simp only [gt_iff_lt]
      have e1 : cs.averageMovSpeed * age ts k + s.indoorDev = reach cs ts k := by rw [z2]; rfl
      have e2 : cs.averageMovSpeed * age ts o + s.outdoorDev = reach cs ts o := by rw [o2]; rfl
      have e3 : Geometry.getDist s.indoorPos.x s.indoorPos.y s.outdoorPos.x s.outdoorPos.y <
          s.indoorPos.deviationM + s.outdoorPos.deviationM + cs.fuseGpsBorderM ↔ Overlap cs k o := by
        unfold Overlap
        rw [z1.x, z1.y, o1.x, o1.y, z1.radius, o1.radius]
      simp only [e1, e2, e3]
      by_cases c1 : cs.positionIsTooOldSec < age ts k
      · rw [if_pos c1, if_pos c1]; exact chosen_sat o1
      rw [if_neg c1, if_neg c1]
      by_cases c2 : cs.positionIsTooOldSec < age ts o
      · rw [if_pos c2, if_pos c2]; exact chosen_zone z1
      rw [if_neg c2, if_neg c2]
      by_cases c3 : cs.fuseGps = true ∧ Overlap cs k o
      · rw [if_pos c3, if_pos ⟨c3.1, e3.mpr c3.2⟩]
        constructor
        · simp only [blend]; rw [z1.x, o1.x]
        · simp only [blend]; rw [z1.y, o1.y]
        · exact z1.levelId
        · simp only [blend]; rw [z1.ts, o1.ts]
        · exact z1.isEmpty
        · rfl
      have c3' := c3
      rw [← e3] at c3'
      rw [if_neg c3, if_neg c3']
      by_cases c4 : reach cs ts k < reach cs ts o
      · rw [if_pos c4, if_pos c4]; exact chosen_zone z1
      · rw [if_neg c4, if_neg c4]; exact chosen_sat o1

/-- The post-processor leaves the stored positions alone. -/
theorem processed_kept {cs : CommonSettings} (hp : Framed cs) (hps : cs.useSmoothing = false) (allowed : ℝ → ℝ → Prop)
    (s : Post.PostState) (fused : Position) (ts lm : Int) (lv : Level) {p : Position × Post.PostState}
    (h : Post.getProcessedPosition cs allowed s fused ts lm lv = some p) :
    p.2.indoorPos = s.indoorPos ∧ p.2.indoorDev = s.indoorDev ∧ p.2.outdoorPos = s.outdoorPos ∧ p.2.outdoorDev = s.outdoorDev := by
  unfold Post.getProcessedPosition at h
  dsimp only at h
  generalize hs1 : (if lm > 0 then { s with lastStepTs := lm } else s) = s1 at h
  have hind : s1.indoorPos = s.indoorPos ∧ s1.indoorDev = s.indoorDev ∧ s1.outdoorPos = s.outdoorPos ∧ s1.outdoorDev = s.outdoorDev := by
    rw [← hs1]; split_ifs <;> exact ⟨rfl, rfl, rfl, rfl⟩
  split_ifs at h
  all_goals try (rw [Option.some.injEq] at h; rw [← h]; exact hind)
  · have hsm : Post.smoothing cs allowed s1 fused ts = some (fused, s1) := by
      unfold Post.smoothing
      simp [hps, hp.timeSmoothing]
    rw [hsm, Option.bind_some] at h
    dsimp only at h
    rw [Option.map_eq_some_iff] at h
    obtain ⟨q, -, hq⟩ := h
    rw [← hq]
    dsimp only
    have hto : Post.takeOver cs s1 fused ts = { s1 with lastOut := { fused with ts := ts, deviationM := s1.indoorPos.deviationM } } := by
      unfold Post.takeOver
      simp [hp.stops]
    rw [hto]
    exact hind

end Verif.Mixed
