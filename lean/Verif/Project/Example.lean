import Verif.Project.Props
import Verif.Geo.Props

/-!
# C134: a client under a beacon beside a corridor
-/

namespace Verif.Project

open Verif Verif.Levels Verif.Nav
open Verif.Geo (XYPoint)
open Verif.Knn (Result)

/-- The beacon. -/
noncomputable def tx : Transmitter XYZPoint := ⟨"tx", ⟨3, 4, 0⟩, ⟨-59, 10, 0⟩, .BEACON⟩

/-- A corridor of ten metres. -/
noncomputable def corridor : List (NavGraph.Op XYPoint) := [.addVertex ⟨0, 0⟩, .addVertex ⟨10, 0⟩, .addEdge 0 1]

/-- A hall of ten by ten metres with the beacon; the corridor runs along the wall. -/
noncomputable def hall : Level :=
  { bareLevel "A" [tx] with geometry := ⟨[], ⟨⟨0, 0⟩, ⟨10, 10⟩⟩, []⟩, graph := NavGraph.run corridor }

/-- The client without the projection. -/
noncomputable def hallCfg : Cfg where
  env := exEnv
  cs := plainSettings
  levels := collect [hall]
  noSignal := 35000
  noAction := plainCfg.noAction
  detector := .transmitters plainSettings.useTxPower
  indoor := .zone [("A", -59)] [("A", 10)]
  pre := Radio.mkCfg (collect [hall]) plainSettings
  fusion := Fusion.fusionConfig plainSettings

theorem hall_id : hall.id = "A" := rfl

theorem hall_built : mkCfg exEnv (collect [hall]) plainSettings [("A", ⟨-59, 10⟩)] = some hallCfg := by
  have hz : Estim.zoneParams [("A", ⟨-59, 10⟩)] (collect [hall]) = some ([("A", -59)], [("A", 10)]) := by
    simp [Estim.zoneParams, collect_levels, hall_id, List.foldlM, StdMap.find?, StdMap.set, StdMap.insertSorted]
  unfold mkCfg createPositionEstimator
  rw [if_neg (by simp [plainSettings]), hz]
  simp [hallCfg, plainSettings, createLevelEstimator, plainCfg]

theorem hallClient : Client [hall] hallCfg where
  map := by
    refine ⟨by simp, ?_, ?_, ?_⟩ <;> intro l hl <;> rw [List.mem_singleton] at hl <;> rw [hl]
    · simp [hall_id]
    · rfl
    · exact ⟨corridor, rfl⟩
  settings := ⟨fun h => (by cases h), fun h => (by cases h)⟩
  sort := sortsBy_insertionSort _
  radioSorts := Radio.insertionSorts_lawful
  built := ⟨_, hall_built⟩

theorem hall_tx : hall.transmitter "tx" = some tx := by
  simp [hall, bareLevel, Level.addTransmitters, Level.transmitter, tx, StdMap.insert, StdMap.insertSorted, StdMap.find?]

theorem hall_heard (t : Int) : Heard [hall] hallCfg.cs (exRadio t) := by
  refine ⟨_, rfl, ?_, ?_, ?_, .inr ⟨tx, ⟨hall, rfl, ?_, rfl⟩, ?_⟩⟩
  · simp [Radio.TypeEnabled, hallCfg, plainSettings]
  · intro _; simp [hallCfg, plainSettings]; norm_num
  · intro h; exact absurd rfl h
  · simp [hall, bareLevel, Level.addTransmitters, tx, StdMap.insert, StdMap.insertSorted]
  · simp [tx, hallCfg, plainSettings]

/-- Two signals of the beacon, and a message of the accelerometer within the next five seconds: the beacon is answered. -/
theorem hall_answer (g : Garbage) (k : Int) (hk : 0 ≤ k) (hk' : k < 5000) :
    ∃ s outs o, navigateAll hallCfg (init hallCfg g) [[exRadio 1000, exRadio 3000], [exAccel (3000 + k)]] = .ok (s, outs ++ [o]) ∧
      o.1.status = .OK ∧ o.1.provider = some .INDOOR ∧
      (⟨o.1.posLatitude, o.1.posLongitude⟩ : Geo.GeoPoint) = Geo.localToGps ⟨3, 4⟩ ⟨0, 0⟩ ∧ o.1.posLevel = "A" := by
  obtain ⟨s, outs, h1, -⟩ := C79_total hallClient g [[exRadio 1000, exRadio 3000]]
  have hrec : records [exRadio 1000, exRadio 3000] = [exRadio 1000, exRadio 3000] := records_ordered _ (by simp [Ordered, exRadio])
  have htk : taken [[exRadio 1000, exRadio 3000]] = [exRadio 1000, exRadio 3000] := by simp [taken, hrec]
  have hna : ∀ t, ¬ Heard [hall] hallCfg.cs (exAccel t) := by rintro t ⟨d, hd, -⟩; cases hd
  have hspan : spanOf hallCfg.cs = 1000 := by
    simp [spanOf, hallCfg, plainSettings]
  have hdead : ⌊1000 * hallCfg.cs.deadReckoningTime⌋ = 5000 := by
    have : (1000 : ℝ) * hallCfg.cs.deadReckoningTime = ((5000 : Int) : ℝ) := by
      simp [hallCfg, plainSettings]; norm_num
    rw [this, Int.floor_intCast]
  obtain ⟨d1, e1, a1⟩ := hall_heard 1000
  have ed1 : d1 = ⟨.BEACON, "tx", -70, 0, 0, 0⟩ := by cases e1; rfl
  subst ed1
  have hw : windows [hall] hallCfg.cs (taken [[exRadio 1000, exRadio 3000]] ++ [exAccel (3000 + k)]) =
      ⟨some 3000, [], some (3000, [⟨⟨.BEACON, "tx", -70, 0, 0, 0⟩, 1000⟩, ⟨⟨.BEACON, "tx", -70, 0, 0, 0⟩, 3000⟩])⟩ := by
    rw [htk, windows_snoc, take_not_heard _ (hna _)]
    rw [show [exRadio 1000, exRadio 3000] = ([] ++ [exRadio 1000]) ++ [exRadio 3000] from rfl, windows_snoc, windows_snoc]
    unfold exRadio
    rw [take_heard _ a1, take_heard _ a1, hspan]
    simp [Windows.hear, windows]
  obtain ⟨s', out, dbg, b, t, h2, h3, h4, -, h5, -⟩ := C94_zone hallClient plain_settings g [[exRadio 1000, exRadio 3000]] h1
    (exAccel (3000 + k))
    (by
      rw [htk]
      intro e he
      simp only [List.mem_append, List.mem_cons, List.not_mem_nil, or_false] at he
      rcases he with (rfl | rfl) | rfl <;> simp only [exRadio, exAccel] <;> omega)
    ⟨[exRadio 1000], exRadio 3000, [exAccel (3000 + k)], by rw [htk]; rfl, hall_heard _,
      (by intro e he; rw [List.mem_singleton] at he; rw [he]; exact hna _),
      (by change 3000 + k < 3000 + 1000 * 35; omega)⟩ (by rw [hw])
  obtain ⟨⟨mm, hmm, hb⟩, -⟩ := h3
  have hb' : b = "tx" := by
    rw [← hb]
    simp only [List.mem_cons, List.not_mem_nil, or_false] at hmm
    rcases hmm with rfl | rfl <;> rfl
  subst hb'
  have ht : t = tx := by
    rw [hall_tx] at h4
    simp only [Option.some.injEq] at h4
    exact h4.symm
  subst ht
  have hbox : Estim.Box.Covers hall.geometry.boundingBox ⟨tx.point.x, tx.point.y⟩ := by
    simp [Estim.Box.Covers, hall, tx]
    norm_num
  have hage : (exAccel (3000 + k)).ts - 3000 = k := by simp [exAccel]
  rw [hage, hdead] at h5
  obtain ⟨r1, r2, r3, r4, -⟩ := h5 ⟨hbox, hk'⟩
  have hn : ∀ s calls, navigateAll hallCfg s [calls] = andThen (navigate hallCfg s calls) (fun r => .ok (r.1, r.2 ++ [])) := fun _ _ => rfl
  refine ⟨s', outs, (out, dbg), ?_, r1, r3, ?_, r2⟩
  · rw [hn] at h1
    rw [navigateAll]
    cases hh : navigate hallCfg (init hallCfg g) [exRadio 1000, exRadio 3000] with
    | throws => rw [hh] at h1; cases h1
    | undefined => rw [hh] at h1; cases h1
    | ok r =>
      rw [hh] at h1
      simp only [andThen, List.append_nil, Result.ok.injEq, Prod.mk.injEq] at h1
      obtain ⟨rfl, rfl⟩ := h1
      simp only [andThen]
      rw [hn, h2]
      rfl
  · have e3 : downToCm 3 = 3 := by
      unfold downToCm
      rw [show (3 : ℝ) * 100 = ((300 : Int) : ℝ) by norm_num, Int.floor_intCast]; norm_num
    have e4 : downToCm 4 = 4 := by
      unfold downToCm
      rw [show (4 : ℝ) * 100 = ((400 : Int) : ℝ) by norm_num, Int.floor_intCast]; norm_num
    rw [r4]
    show Geo.localToGps ⟨downToCm 3, downToCm 4⟩ ⟨0, 0⟩ = _
    rw [e3, e4]

theorem corridor_iff (q : XYPoint) : NavGraph.OnGraph corridor q ↔ 0 ≤ q.x ∧ q.x ≤ 10 ∧ q.y = 0 := by
  constructor
  · rintro ⟨i, j, u, v, ⟨pre, post, a, b, hops, ⟨h1, h2⟩, ⟨h3, h4⟩, h5⟩, hu, hv, t, ht0, ht1, rfl⟩
    have hin : NavGraph.Op.addEdge a b ∈ corridor := by rw [hops]; simp
    simp only [corridor, List.mem_cons, List.not_mem_nil, or_false, reduceCtorEq, false_or, NavGraph.Op.addEdge.injEq] at hin
    obtain ⟨rfl, rfl⟩ := hin
    have hp : NavGraph.addedPoints corridor = [⟨0, 0⟩, ⟨10, 0⟩] := rfl
    rw [hp] at hu hv
    rcases h5 with ⟨hi, hj⟩ | ⟨hi, hj⟩
    · have : i = 0 := by omega
      have : j = 1 := by omega
      subst i j
      simp only [List.getElem?_cons_zero, List.getElem?_cons_succ, Option.some.injEq] at hu hv
      subst hu hv
      simp only [Geometry.along]
      refine ⟨?_, ?_, ?_⟩ <;> linarith
    · have : j = 0 := by omega
      have : i = 1 := by omega
      subst i j
      simp only [List.getElem?_cons_zero, List.getElem?_cons_succ, Option.some.injEq] at hu hv
      subst hu hv
      simp only [Geometry.along]
      refine ⟨?_, ?_, ?_⟩ <;> linarith
  · rintro ⟨h1, h2, h3⟩
    refine ⟨0, 1, ⟨0, 0⟩, ⟨10, 0⟩, ⟨[.addVertex ⟨0, 0⟩, .addVertex ⟨10, 0⟩], [], 0, 1, rfl, ?_, ?_, .inl ⟨rfl, rfl⟩⟩, rfl, rfl, q.x / 10, ?_, ?_, ?_⟩
    · constructor <;> simp [NavGraph.addedPoints]
    · constructor <;> simp [NavGraph.addedPoints]
    · positivity
    · linarith
    · cases q
      simp only [Geometry.along, XYPoint.mk.injEq]
      simp only at h3
      exact ⟨by ring, by rw [h3]; ring⟩

/-- **C134** is about possible histories: under the beacon at (3, 4) the client without the projection answers the place of the beacon,
the one with the projection (for places nearer than five metres) answers a place of the corridor, within ten centimetres of (3, 0). -/
theorem C134_example (g : Garbage) (k : Int) (hk : 0 ≤ k) (hk' : k < 5000) :
    ∃ d s outs o s' outs' o' x, mkCfg exEnv (collect [hall]) (onto 5 plainSettings) [("A", ⟨-59, 10⟩)] = some d ∧
      navigateAll hallCfg (init hallCfg g) [[exRadio 1000, exRadio 3000], [exAccel (3000 + k)]] = .ok (s, outs ++ [o]) ∧
      navigateAll d (init d g) [[exRadio 1000, exRadio 3000], [exAccel (3000 + k)]] = .ok (s', outs' ++ [o']) ∧
      o.1.status = .OK ∧ o'.1.status = .OK ∧
      (⟨o.1.posLatitude, o.1.posLongitude⟩ : Geo.GeoPoint) = Geo.localToGps ⟨3, 4⟩ ⟨0, 0⟩ ∧
      (⟨o'.1.posLatitude, o'.1.posLongitude⟩ : Geo.GeoPoint) = Geo.localToGps ⟨x, 0⟩ ⟨0, 0⟩ ∧ |x - 3| ≤ 1 / 10 := by
  have hd : mkCfg exEnv (collect [hall]) (onto 5 plainSettings) [("A", ⟨-59, 10⟩)] = some (withGraph 5 hallCfg) := by
    have := hall_built
    unfold mkCfg at this ⊢
    have e : createPositionEstimator exEnv (collect [hall]) (onto 5 plainSettings) [("A", ⟨-59, 10⟩)] =
      createPositionEstimator exEnv (collect [hall]) plainSettings [("A", ⟨-59, 10⟩)] := rfl
    rw [e]
    cases hh : createPositionEstimator exEnv (collect [hall]) plainSettings [("A", ⟨-59, 10⟩)] with
    | none => rw [hh] at this; cases this
    | some i =>
      rw [hh] at this
      simp only [Option.map_some, Option.some.injEq] at this ⊢
      rw [← this]
      rfl
  obtain ⟨s, outs, o, h1, h2, h3, h4, -⟩ := hall_answer g k hk hk'
  obtain ⟨s1, o1, s', o', e1, e2, hf⟩ := C134_projection hallClient hall_built hd rfl rfl g [[exRadio 1000, exRadio 3000], [exAccel (3000 + k)]]
  rw [h1] at e1
  simp only [Result.ok.injEq, Prod.mk.injEq] at e1
  obtain ⟨rfl, rfl⟩ := e1
  have hl2 := List.forall₂_drop outs.length hf
  rw [List.drop_left] at hl2
  obtain ⟨o2, r, hb, hr, hl3⟩ := List.forall₂_cons_left_iff.mp hl2
  rw [List.forall₂_nil_left_iff] at hr
  subst hr
  obtain ⟨l1, rfl⟩ : ∃ l1, o' = l1 ++ [o2] := ⟨_, by rw [← hl3, List.take_append_drop]⟩
  obtain ⟨p, q, hd1, hp, hq⟩ := C134_one_floor hb h2 (by rw [h3]; simp)
  have hbind : hall.bindingPoint = ⟨0, 0⟩ := rfl
  rw [hbind] at hp hq
  -- how places are shown in the hall
  have hin : ∀ z : ℝ, 0 ≤ downToCm (min (max z 0) 10) ∧ downToCm (min (max z 0) 10) ≤ 10 ∧
      downToCm (min (max z 0) 10) ≤ min (max z 0) 10 ∧ min (max z 0) 10 < downToCm (min (max z 0) 10) + 1 / 100 := by
    intro z
    unfold downToCm
    have a1 := Int.floor_le (min (max z 0) 10 * 100)
    have a2 := Int.lt_floor_add_one (min (max z 0) 10 * 100)
    have a3 : (0 : ℝ) ≤ min (max z 0) 10 := le_min (le_max_right _ _) (by norm_num)
    have a4 : min (max z 0) 10 ≤ (10 : ℝ) := min_le_right _ _
    have a5 : (0 : ℝ) ≤ (⌊min (max z 0) 10 * 100⌋ : ℝ) := by
      have : (0 : Int) ≤ ⌊min (max z 0) 10 * 100⌋ := Int.floor_nonneg.mpr (by positivity)
      exact_mod_cast this
    refine ⟨by positivity, ?_, ?_, ?_⟩ <;> linarith
  have hcos : Real.cos ((⟨0, 0⟩ : Geo.GeoPoint).latitude * Real.pi / 180) = 1 := by simp
  have hinj : ∀ a b : XYPoint, 0 ≤ a.x → a.x ≤ 10 → 0 ≤ b.x → b.x ≤ 10 →
      Geo.localToGps a ⟨0, 0⟩ = Geo.localToGps b ⟨0, 0⟩ → a = b := by
    intro a b a1 a2 b1 b2 hab
    rw [← Geo.C02_local_geo_local a ⟨0, 0⟩ (by constructor <;> norm_num) (by rw [hcos]; norm_num) (by rw [hcos]; linarith)
        (by rw [hcos]; linarith),
      ← Geo.C02_local_geo_local b ⟨0, 0⟩ (by constructor <;> norm_num) (by rw [hcos]; norm_num) (by rw [hcos]; linarith)
        (by rw [hcos]; linarith), hab]
  have hsp : shown hall p = ⟨downToCm (min (max p.x 0) 10), downToCm (min (max p.y 0) 10)⟩ := rfl
  have hsq : shown hall q = ⟨downToCm (min (max q.x 0) 10), downToCm (min (max q.y 0) 10)⟩ := rfl
  have hpe := hinj _ ⟨3, 4⟩ (by rw [hsp]; exact (hin p.x).1) (by rw [hsp]; exact (hin p.x).2.1) (by norm_num) (by norm_num) (hp.trans h4)
  rw [hsp, XYPoint.mk.injEq] at hpe
  -- the place before rounding
  have hraw : ∀ z w : ℝ, 0 < w → w < 9 → downToCm (min (max z 0) 10) = w → w ≤ z ∧ z < w + 1 / 100 := by
    intro z w hw0 hw9 he
    obtain ⟨-, -, a3, a4⟩ := hin z
    rw [he] at a3 a4
    have hz : min (max z 0) 10 = z := by
      have hz0 : 0 < z := by
        by_contra hcon
        rw [max_eq_right (not_lt.mp hcon), min_eq_left (by norm_num)] at a3
        linarith
      have hz1 : z < 10 := by
        by_contra hcon
        rw [max_eq_left hz0.le, min_eq_right (not_lt.mp hcon)] at a4
        linarith
      rw [max_eq_left hz0.le, min_eq_left hz1.le]
    rw [hz] at a3 a4
    exact ⟨a3, a4⟩
  obtain ⟨px1, px2⟩ := hraw p.x 3 (by norm_num) (by norm_num) hpe.1
  obtain ⟨py1, py2⟩ := hraw p.y 4 (by norm_num) (by norm_num) hpe.2
  -- the foot of the perpendicular
  have hfoot : NavGraph.OnGraph corridor ⟨p.x, 0⟩ := (corridor_iff _).mpr ⟨by linarith, by norm_num; linarith, rfl⟩
  have hfd : Geometry.dist p ⟨p.x, 0⟩ = p.y := by
    unfold Geometry.dist Geometry.sqDist
    rw [show (p.x - p.x) ^ 2 + (p.y - 0) ^ 2 = p.y ^ 2 by ring]
    exact Real.sqrt_sq (by linarith)
  rcases hd1 corridor rfl with ⟨k1, -, k3⟩ | ⟨-, k2⟩
  · obtain ⟨q1, q2, q3⟩ := (corridor_iff q).mp k1
    have hk3 := k3 _ hfoot
    rw [hfd] at hk3
    have hsqr : (p.x - q.x) ^ 2 + p.y ^ 2 ≤ (p.y + 1e-4) ^ 2 := by
      unfold Geometry.dist Geometry.sqDist at hk3
      rw [q3, sub_zero] at hk3
      have h0 : 0 ≤ (p.x - q.x) ^ 2 + p.y ^ 2 := by positivity
      have hs := Real.sq_sqrt h0
      rw [← hs]
      exact pow_le_pow_left₀ (Real.sqrt_nonneg _) hk3 2
    have hclose : |p.x - q.x| ≤ 3 / 100 := by
      refine abs_le_of_sq_le_sq ?_ (by norm_num)
      norm_num at hsqr ⊢
      nlinarith
    obtain ⟨c1, c2⟩ := abs_le.mp hclose
    have hqx : min (max q.x 0) 10 = q.x := by rw [max_eq_left q1, min_eq_left q2]
    have hqy : downToCm (min (max q.y 0) 10) = 0 := by
      rw [q3, max_self, min_eq_left (by norm_num)]
      simp [downToCm]
    obtain ⟨-, -, d1, d2⟩ := hin q.x
    rw [hqx] at d1 d2
    refine ⟨withGraph 5 hallCfg, _, outs, o, s', l1, o2, downToCm q.x, hd, h1, e2, h2, ?_, h4, ?_, ?_⟩
    · rw [hb.same]; exact h2
    · rw [← hq, hsq, hqx, hqy]
    · rw [abs_le]
      constructor <;> linarith
  · have := k2 _ hfoot
    rw [hfd] at this
    norm_num at this
    linarith

end Verif.Project
