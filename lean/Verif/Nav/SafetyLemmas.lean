import Verif.Nav.BatchProps
import Verif.Radio.Props
import Verif.LevelEst.TransmittersProps
import Verif.Knn.EstimatorProps
import Verif.Estim.Props
import Verif.Post.Lemmas
import Verif.Smooth.LsProps
import Verif.Trilat.Props
import Verif.Fusion.FusionProps
import Verif.NavGraph.Props
import Verif.Levels.Props

/-!
# What holds in every reachable state of the navigation client
-/

namespace Verif.Nav

open Verif.Levels
open Verif.Knn (Result)
open Verif.Smooth
open Verif.Post

/-! ## Positions -/

/-- Positions that occur: the heading is never set, and a position that is not empty is on a level of the map
and has a provider. -/
structure Tame (ls : List Level) (p : Position) : Prop where
  heading : p.heading = 0
  level : p.isEmpty = false → (∃ l ∈ ls, l.id = p.levelId) ∧ p.provider ≠ .NONE

theorem tame_default (ls : List Level) : Tame ls Position.default := ⟨rfl, fun h => by cases h⟩

theorem Tame.congr {ls : List Level} {p q : Position} (h : Tame ls p) (h1 : q.heading = p.heading)
    (h2 : q.isEmpty = p.isEmpty) (h3 : q.levelId = p.levelId) (h4 : q.provider = p.provider) : Tame ls q :=
  ⟨h1.trans h.heading, fun he => by rw [h3, h4]; exact h.level (h2 ▸ he)⟩

/-! ## Outdoor estimator -/

theorem sigmaAdd_defined (w : ℕ) (hw : 0 < w) (d : ℝ) (buf : List Geo.XYPoint) (hb : buf.length ≤ w) (p : Geo.XYPoint) :
    ∃ r, Estim.sigmaAdd w d buf p = some r ∧ r.2.length ≤ w := by
  unfold Estim.sigmaAdd
  by_cases hl : buf.length = w
  · rw [if_pos hl]
    cases hbuf : buf with
    | nil => rw [hbuf] at hl; simp at hl; omega
    | cons q rest => exact ⟨_, rfl, by rw [hbuf] at hl; simp at hl ⊢; omega⟩
  · rw [if_neg hl]
    exact ⟨_, rfl, by simp; omega⟩

theorem outdoor_defined (ls : List Level) (s : CommonSettings) (hs : GoodSettings s) (c : LevelCollector)
    (hc : c.levels = ls) (st : Estim.OutdoorState)
    (hb : s.useGpsSigmaFilter = true → st.buf.length ≤ s.sigmaFilterWindow) (ht : Tame ls st.last) (k : Estim.Call) :
    ∃ out st', Estim.outdoorPosition s c st k.ts k.sensor k.nmea k.indoor = some (out, st') ∧
      (s.useGpsSigmaFilter = true → st'.buf.length ≤ s.sigmaFilterWindow) ∧ Tame ls st'.last ∧ Tame ls out := by
  have hdef : ∃ r, Estim.outdoorPosition s c st k.ts k.sensor k.nmea k.indoor = some r ∧
      (s.useGpsSigmaFilter = true → r.2.buf.length ≤ s.sigmaFilterWindow) := by
    by_cases hf : Estim.IsFix k
    · obtain ⟨st1, -, hbuf1, h2⟩ := Estim.outdoorPosition_fix s c st k hf
      rw [h2]
      have hb1 : s.useGpsSigmaFilter = true → st1.buf.length ≤ s.sigmaFilterWindow := by
        intro hu
        rcases hbuf1 with h | h <;> rw [h]
        · exact hb hu
        · simp
      rcases Estim.outdoorLevels_spec s c st1 k with ⟨-, hr⟩ | ⟨l, -, hcase⟩
      · exact ⟨_, hr, hb1⟩
      · rcases hcase with ⟨hfl, hn, -⟩ | ⟨valid, buf, h1, h2, h3, h4⟩
        · obtain ⟨r, hr, -⟩ := sigmaAdd_defined _ (hs.sigma hfl.1) s.sigmaFilterDelta st1.buf (hb1 hfl.1) (Estim.fixOn k l)
          rw [hr] at hn; simp at hn
        · have hbl : s.useGpsSigmaFilter = true → buf.length ≤ s.sigmaFilterWindow := by
            intro hu
            by_cases hfl : s.useGpsSigmaFilter = true ∧ k.ts ≠ st1.last.ts
            · obtain ⟨r, hr, hl⟩ := sigmaAdd_defined _ (hs.sigma hu) s.sigmaFilterDelta st1.buf (hb1 hu) (Estim.fixOn k l)
              rw [h2 hfl] at hr
              simp only [Option.some.injEq] at hr
              rw [← hr] at hl; exact hl
            · rw [(h1 hfl).2]; exact hb1 hu
          by_cases hv : valid = true ∧ Estim.SatellitesOk s k
          · exact ⟨_, h3 hv, hbl⟩
          · exact ⟨_, h4 hv, hbl⟩
    · obtain ⟨st1, -, hbuf1, h2⟩ := Estim.outdoorPosition_nofix s c st k hf
      rw [h2]
      refine ⟨_, rfl, ?_⟩
      intro hu
      rcases hbuf1 with h | h <;> simp only [h]
      · exact hb hu
      · simp
  obtain ⟨⟨out, st'⟩, hr, hbuf⟩ := hdef
  obtain ⟨h1, h2⟩ := Estim.outdoor_step s c st k out st' hr
  refine ⟨out, st', hr, hbuf, ?_⟩
  by_cases hf : Estim.IsFix k
  · rcases h2 hf with ⟨h, h'⟩ | ⟨l, hl, -, ho, hlast⟩
    · rw [h, h']; exact ⟨ht, tame_default ls⟩
    · have hm : l ∈ ls := by
        obtain ⟨b, a, e, -, -⟩ := hl
        rw [← hc, e]; simp
      have htame : Tame ls out := by
        rw [ho]
        exact ⟨rfl, fun _ => ⟨⟨l, hm, rfl⟩, by simp [Estim.fixPosition]⟩⟩
      rw [hlast]; exact ⟨htame, htame⟩
  · obtain ⟨ha, hb⟩ := h1 hf
    rw [ha]
    refine ⟨ht, ?_⟩
    rw [hb]
    split_ifs
    · exact tame_default ls
    · exact ht

/-! ## Post-processor -/

/-- The smoother holds tame positions and its fits have histories. -/
def SmootherOk (cs : CommonSettings) (ls : List Level) : Smoother → Prop
  | .ab _ s => Tame ls s.position
  | .ls P _ s => P = lsParams cs ∧ 0 ≤ P.timeInterval ∧ LsInv P s

structure PostOk (cs : CommonSettings) (ls : List Level) (s : PostState) : Prop where
  indoor : Tame ls s.indoorPos
  outdoor : Tame ls s.outdoorPos
  last : Tame ls s.lastOut
  prev : Tame ls s.time.prev
  next : Tame ls s.time.next
  smoother : SmootherOk cs ls s.smoother

theorem postOk_init (cs : CommonSettings) (hs : GoodSettings cs) (ls : List Level) : PostOk cs ls (postInit cs) := by
  refine ⟨tame_default ls, tame_default ls, tame_default ls, tame_default ls, tame_default ls, ?_⟩
  unfold postInit
  dsimp only
  cases h : cs.useAbFilter with
  | true => exact tame_default ls
  | false => exact ⟨rfl, hs.fit h, ⟨[], rfl⟩, ⟨[], rfl⟩⟩

theorem fuse_tame (cs : CommonSettings) (ls : List Level) (s : PostState) (h : PostOk cs ls s) (t : Int)
    (i o : Position) (hi : Tame ls i) (ho : Tame ls o) (st : NavigationStatus) :
    Tame ls (fusePositions cs s t i o st).1 ∧ PostOk cs ls (fusePositions cs s t i o st).2 := by
  have hs' : PostOk cs ls (fillOutdoor cs (fillIndoor cs s i) o) := by
    have h1 : PostOk cs ls (fillIndoor cs s i) := by
      unfold fillIndoor
      split_ifs
      · exact h
      · exact ⟨hi, h.outdoor, h.last, h.prev, h.next, h.smoother⟩
    unfold fillOutdoor
    split_ifs
    · exact h1
    · exact ⟨h1.indoor, ho, h1.last, h1.prev, h1.next, h1.smoother⟩
  refine ⟨?_, hs'⟩
  change Tame ls (chooseFused cs _ t i o st)
  unfold chooseFused
  dsimp only
  split_ifs with h1 h2 h3 h4
  · exact ho
  · exact hi
  · exact hs'.indoor
  · exact hs'.outdoor
  · exact hs'.outdoor
  · exact hs'.indoor
  · exact ⟨hs'.indoor.heading, fun he => ⟨(hs'.indoor.level he).1, by simp⟩⟩
  · exact hs'.indoor
  · exact hs'.outdoor

theorem smooth_tame (cs : CommonSettings) (ls : List Level) (al : ℝ → ℝ → Prop) (sm : Smoother)
    (hs : SmootherOk cs ls sm) (p : Position) (hp : Tame ls p) :
    ∃ r, sm.smooth al p = some r ∧ Tame ls r.1 ∧ SmootherOk cs ls r.2 := by
  cases sm with
  | ab P s =>
    refine ⟨_, rfl, ?_⟩
    unfold abSmooth
    dsimp only [SmootherOk] at hs ⊢
    split_ifs
    · exact ⟨hp, hp⟩
    · exact ⟨hp.congr rfl rfl rfl rfl, hp.congr rfl rfl rfl rfl⟩
    · exact ⟨hp.congr rfl rfl rfl rfl, hp.congr rfl rfl rfl rfl⟩
    · exact ⟨hs, hs⟩
  | ls P ub s =>
    obtain ⟨h1, h2, h3⟩ := hs
    obtain ⟨out, s', g1, g2, g3, -⟩ := lsSmooth_spec P h2 ub al s h3 p
    refine ⟨(out, .ls P ub s'), by simp [Smoother.smooth, g1], ?_, h1, h2, g2⟩
    rw [g3]
    exact hp.congr rfl rfl rfl rfl

theorem reset_ok (cs : CommonSettings) (ls : List Level) (sm : Smoother) (hs : SmootherOk cs ls sm) (p : Position)
    (hp : Tame ls p) : SmootherOk cs ls (sm.reset p) := by
  cases sm with
  | ab P s => exact hp
  | ls P ub s => exact ⟨hs.1, hs.2.1, fit_clear P _ hs.2.2.1, fit_clear P _ hs.2.2.2⟩

theorem timeSmooth_tame (ls : List Level) (t : TimeState) (p : Position) (ts : Int) (h1 : Tame ls t.prev)
    (h2 : Tame ls t.next) (hp : Tame ls p) :
    Tame ls (timeSmooth t p ts).1 ∧ Tame ls (timeSmooth t p ts).2.prev ∧ Tame ls (timeSmooth t p ts).2.next := by
  have hint : ∀ s : TimeState, Tame ls s.next → Tame ls (timeInterpolate s p ts) := by
    intro s hs
    unfold timeInterpolate
    dsimp only
    split_ifs
    · exact hs
    · exact hp
    · exact hs.congr rfl rfl rfl rfl
  unfold timeSmooth
  dsimp only
  split_ifs
  · exact ⟨hp, h1, h2⟩
  · exact ⟨hp, hp, hp⟩
  · exact ⟨hp, h2, hp⟩
  · exact ⟨hint _ hp, h2, hp⟩
  · exact ⟨hint _ h2, h1, h2⟩

theorem smoothing_tame (cs : CommonSettings) (ls : List Level) (al : ℝ → ℝ → Prop) (s : PostState)
    (hs : PostOk cs ls s) (p : Position) (hp : Tame ls p) (ts : Int) :
    ∃ r, smoothing cs al s p ts = some r ∧ Tame ls r.1 ∧ PostOk cs ls r.2 := by
  have h1 : ∃ r : Position × PostState, (if cs.useSmoothing then
      let sm := if s.lastOut.levelId ≠ p.levelId then s.smoother.reset p else s.smoother
      (sm.smooth al p).map (fun r => (r.1, { s with smoother := r.2 }))
    else some (p, s)) = some r ∧ Tame ls r.1 ∧ PostOk cs ls r.2 := by
    dsimp only
    split_ifs with hu hl
    · obtain ⟨r, e, ht, hok⟩ := smooth_tame cs ls al _ (reset_ok cs ls _ hs.smoother p hp) p hp
      exact ⟨_, by rw [e]; rfl, ht, hs.indoor, hs.outdoor, hs.last, hs.prev, hs.next, hok⟩
    · obtain ⟨r, e, ht, hok⟩ := smooth_tame cs ls al _ hs.smoother p hp
      exact ⟨_, by rw [e]; rfl, ht, hs.indoor, hs.outdoor, hs.last, hs.prev, hs.next, hok⟩
    · exact ⟨_, rfl, hp, hs⟩
  obtain ⟨r, e, ht, hok⟩ := h1
  unfold smoothing
  dsimp only at e ⊢
  rw [e, Option.map_some]
  refine ⟨_, rfl, ?_⟩
  split_ifs
  · obtain ⟨g1, g2, g3⟩ := timeSmooth_tame ls r.2.time r.1 ts hok.prev hok.next ht
    exact ⟨g1, hok.indoor, hok.outdoor, hok.last, g2, g3, hok.smoother⟩
  · exact ⟨ht, hok⟩

theorem process_tame (cs : CommonSettings) (ls : List Level) (al : ℝ → ℝ → Prop) (s : PostState)
    (hs : PostOk cs ls s) (p : Position) (hp : Tame ls p) (ts m : Int) (level : Level)
    (hg : ∃ ops, level.graph = NavGraph.run ops) :
    ∃ r, getProcessedPosition cs al s p ts m level = some r ∧ Tame ls r.1 ∧ PostOk cs ls r.2 := by
  have hs0 : PostOk cs ls (noteMotion s m) := by
    unfold noteMotion
    split_ifs
    · exact ⟨hs.indoor, hs.outdoor, hs.last, hs.prev, hs.next, hs.smoother⟩
    · exact hs
  by_cases hrej : Rejects cs p ts level
  · exact ⟨_, process_rejects hrej, tame_default ls, hs0⟩
  · obtain ⟨c, ec, hc1, hc2⟩ := smoothing_tame cs ls al (noteMotion s m) hs0 p hp ts
    have hto : PostOk cs ls (takeOver cs c.2 c.1 ts) := by
      unfold takeOver
      dsimp only
      split_ifs
      · exact ⟨hc2.indoor, hc2.outdoor, hc1.congr rfl rfl rfl rfl, hc2.prev, hc2.next, hc2.smoother⟩
      · exact ⟨hc2.indoor, hc2.outdoor, hc2.last.congr rfl rfl rfl rfl, hc2.prev, hc2.next, hc2.smoother⟩
      · exact ⟨hc2.indoor, hc2.outdoor, hc1.congr rfl rfl rfl rfl, hc2.prev, hc2.next, hc2.smoother⟩
    have hsnap : ∃ q, snapToGraph cs level (takeOver cs c.2 c.1 ts).lastOut = some q ∧ Tame ls q := by
      obtain ⟨ops, hops⟩ := hg
      unfold snapToGraph
      dsimp only
      by_cases hu : cs.useGraphProjection = true
      · rw [if_pos hu, hops]
        obtain ⟨r, hr, -⟩ := NavGraph.C08_projection ops
          ⟨(takeOver cs c.2 c.1 ts).lastOut.levelId, (takeOver cs c.2 c.1 ts).lastOut.x, (takeOver cs c.2 c.1 ts).lastOut.y⟩
        rw [hr]
        dsimp only
        split
        · exact ⟨_, rfl, hto.last⟩
        · refine ⟨_, rfl, ?_⟩
          split_ifs
          · exact hto.last.congr rfl rfl rfl rfl
          · exact hto.last
      · rw [if_neg hu]
        exact ⟨_, rfl, hto.last⟩
    obtain ⟨q, eq, hq⟩ := hsnap
    have hacc : getProcessedPosition cs al s p ts m level =
        some (fitInBox level.geometry.boundingBox q, { takeOver cs c.2 c.1 ts with
          lastOut := fitInBox level.geometry.boundingBox q }) := by
      unfold Rejects at hrej
      push Not at hrej
      have ec' : smoothing cs al (if m > 0 then { s with lastStepTs := m } else s) p ts = some c := ec
      unfold getProcessedPosition
      dsimp only
      rw [if_neg hrej.1, if_neg (by simpa using hrej.2.1), if_neg (by have := hrej.2.2; omega), ec']
      dsimp only [Option.bind_some]
      rw [eq]
      rfl
    have hfit : Tame ls (fitInBox level.geometry.boundingBox q) := hq.congr rfl rfl rfl rfl
    exact ⟨_, hacc, hfit, hto.indoor, hto.outdoor, hfit, hto.prev, hto.next, hto.smoother⟩

end Verif.Nav
