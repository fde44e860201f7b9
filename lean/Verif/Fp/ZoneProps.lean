import Verif.Fp.ZoneModel
import Verif.Fp.MsProps

/-!
# Property theorems for C140: the answer of a zone in floating point
-/

namespace Verif.Fp

open Verif.Levels Verif.Post Verif.Radio
open Verif.Geo (XYPoint GeoPoint localToGps)
open Verif.Nav (Strongest)

variable (R : Rounding) (K : Cosine)

/-- A floor of at most nine kilometres around its binding point, away from the poles. -/
structure Site (lv : Level) : Prop where
  x : lv.geometry.boundingBox.minCorner.x ≤ lv.geometry.boundingBox.maxCorner.x
  y : lv.geometry.boundingBox.minCorner.y ≤ lv.geometry.boundingBox.maxCorner.y
  x0 : -9000 ≤ lv.geometry.boundingBox.minCorner.x
  y0 : -9000 ≤ lv.geometry.boundingBox.minCorner.y
  x1 : lv.geometry.boundingBox.maxCorner.x ≤ 9000
  y1 : lv.geometry.boundingBox.maxCorner.y ≤ 9000
  binding : Habitable lv.bindingPoint

/-- `w` lies at `v` up to rounding down to whole centimetres. -/
def WithinCm (v w : ℝ) : Prop := v - (1 / 100 + 1 / 10 ^ 7) ≤ w ∧ w ≤ v + 2 / 10 ^ 6

/-- `g` is the geographic point of the local place `q` up to `10⁻¹²` degrees, the longitude up to whole turns. -/
def Named (bind : GeoPoint) (q : XYPoint) (g : GeoPoint) : Prop :=
  |g.latitude - (localToGps q bind).latitude| ≤ 1 / 10 ^ 12 ∧
    ∃ k : ℤ, |g.longitude - (localToGps q bind).longitude - 360 * k| ≤ 1 / 10 ^ 12

theorem whole_near {w : ℝ} {n : ℤ} (h : Whole R w n) (hn : |n| ≤ 10 ^ 6) : |w - n / 100| ≤ 1 / 10 ^ 8 := by
  have hn' : |(n : ℝ)| ≤ 10 ^ 6 := by exact_mod_cast hn
  have h1 := rnd_bound R ((n : ℝ) / 100) (10 ^ 4) (by rw [abs_div, abs_of_pos (by norm_num : (0 : ℝ) < 100)]; linarith)
  rw [← show w = R.rnd (n / 100) from h, u_eq] at h1
  refine h1.trans ?_
  have ht := tiny_le20
  have : (1 : ℝ) / 2 ^ 53 * 10 ^ 4 + 1 / 10 ^ 20 ≤ 1 / 10 ^ 8 := by norm_num
  linarith

theorem shown_within {lo hi v w : ℝ} (h : ShownAs R lo hi v w) (h0 : -9000 ≤ min (max v lo) hi) (h1 : min (max v lo) hi ≤ 9000) :
    WithinCm (min (max v lo) hi) w := by
  unfold ShownAs at h
  generalize min (max v lo) hi = c at *
  have b0 := Int.floor_le (c * 100)
  have b1 := Int.lt_floor_add_one (c * 100)
  generalize ⌊c * 100⌋ = n at *
  have hn0 : -(9 * 10 ^ 5) - 1 < n := by
    have : ((-(9 * 10 ^ 5) - 1 : ℤ) : ℝ) < n := by push_cast; linarith
    exact_mod_cast this
  have hn1 : n ≤ 9 * 10 ^ 5 := by
    have : (n : ℝ) ≤ ((9 * 10 ^ 5 : ℤ) : ℝ) := by push_cast; linarith
    exact_mod_cast this
  rcases h with h | ⟨h, h2⟩
  · have := abs_le.mp (whole_near R h (by rw [abs_le]; omega))
    exact ⟨by linarith [this.1, show (1 : ℝ) / 10 ^ 8 ≤ 1 / 10 ^ 7 by norm_num],
      by linarith [this.2, show (1 : ℝ) / 10 ^ 8 ≤ 2 / 10 ^ 6 by norm_num]⟩
  · have := abs_le.mp (whole_near R h (by rw [abs_le]; omega))
    push_cast at this
    exact ⟨by linarith [this.1, show (1 : ℝ) / 10 ^ 8 ≤ 1 / 10 ^ 7 by norm_num],
      by linarith [this.2, show (1 : ℝ) / 10 ^ 8 ≤ 1 / 10 ^ 6 by norm_num]⟩

/-- A window in which some transmitter of the floor was heard. -/
def Hears (lv : Level) (c : Window) : Bool := c.records.any (fun m => (lv.transmitter m.data.id).isSome)

/-- The latest window in which some transmitter of the floor was heard. -/
def latest (lv : Level) (windows : List Window) : Option Window := (windows.filter (Hears lv)).getLast?

theorem takeOver_indoor (cs : CommonSettings) (s : PostState) (p : Position) (ts : Int) :
    (takeOverF R cs s p ts).indoorPos = s.indoorPos := by
  unfold takeOverF
  dsimp only
  split_ifs <;> rfl

theorem processed_indoor (cs : CommonSettings) (s : PostState) (fused : Position) (ts motion : Int) (lv : Level) :
    (processedF R cs s fused ts motion lv).2.indoorPos = s.indoorPos := by
  have h : (if motion > 0 then { s with lastStepTs := motion } else s).indoorPos = s.indoorPos := by split_ifs <;> rfl
  unfold processedF
  dsimp only
  generalize (if motion > 0 then { s with lastStepTs := motion } else s) = s1 at h
  rw [← h]
  split_ifs
  all_goals first | rfl | exact takeOver_indoor R cs s1 fused ts

theorem hears_iff (lv : Level) (c : Window) :
    Hears lv c = true ↔ c.records.filter (fun m => (lv.transmitter m.data.id).isSome) ≠ [] := by
  unfold Hears
  rw [List.any_eq_true]
  constructor
  · rintro ⟨m, hm, h⟩ he
    have : m ∈ c.records.filter (fun m => (lv.transmitter m.data.id).isSome) := List.mem_filter.mpr ⟨hm, h⟩
    rw [he] at this
    exact absurd this List.not_mem_nil
  · intro h
    obtain ⟨m, hm⟩ := List.exists_mem_of_ne_nil _ h
    exact ⟨m, (List.mem_filter.mp hm).1, (List.mem_filter.mp hm).2⟩

theorem latest_snoc (lv : Level) (ws : List Window) (c : Window) :
    latest lv (ws ++ [c]) = if Hears lv c then some c else latest lv ws := by
  unfold latest
  rw [List.filter_append]
  by_cases h : Hears lv c = true
  · simp [h]
  · simp [h]

/-- The position that is stored after a window. -/
theorem fill_eq (hR : Binary R) {s : Sorts} (hs : s.Lawful) {c : Window} (hw : WholeDbm c.records) (A B : List (String × ℝ))
    (lv : Level) (st : PostState) :
    (fillZoneF R s A B lv st c).indoorPos =
      if Hears lv c then (Estim.zonePosition A B lv c.ts (averagesF R s c.records)).2 else st.indoorPos := by
  obtain ⟨z1, z2⟩ := C138_zone R hR hs hw A B lv c.ts
  unfold fillZoneF
  dsimp only
  by_cases h : Hears lv c = true
  · rw [if_pos h]
    obtain ⟨b, t, prec, rssi, -, -, hz, -, -⟩ := z2 ((hears_iff lv c).mp h)
    rw [hz]
    simp
  · rw [if_neg h]
    have hk := z1 (by by_contra h'; exact h ((hears_iff lv c).mpr h'))
    rw [hk]
    simp [Position.default]

/-- The position that is stored after any windows. -/
theorem stored_eq (hR : Binary R) {s : Sorts} (hs : s.Lawful) (cs : CommonSettings) (A B : List (String × ℝ)) (lv : Level)
    (ws : List Window) (hw : ∀ c ∈ ws, WholeDbm c.records) :
    (zoneStateF R K s cs A B lv ws).indoorPos =
      match latest lv ws with
      | none => Position.default
      | some v => (Estim.zonePosition A B lv v.ts (averagesF R s v.records)).2 := by
  induction ws using List.reverseRecOn with
  | nil => rfl
  | append_singleton ws c ih =>
    have ih := ih (fun d hd => hw d (by simp [hd]))
    unfold zoneStateF at ih ⊢
    rw [List.foldl_append, List.foldl_cons, List.foldl_nil]
    generalize List.foldl _ _ ws = st at ih ⊢
    unfold zoneAnswerF
    dsimp only
    rw [processed_indoor, fill_eq R hR hs (hw c (by simp)), latest_snoc, ih]
    split_ifs <;> rfl

/-- **C140.** A client that locates by zones on one floor hears whole strengths, and stops are not used. In floating point
arithmetic every window, after any windows before it, is answered from the latest window in which a transmitter of the floor was
heard, and there from the transmitter that is strongest in exact arithmetic: when it lies on the map and that window is less than the
dead reckoning time old, its place is shown, clamped to the floor box and rounded down to centimetres, and the latitude and
longitude are those of the shown place up to `10⁻¹²` degrees. Otherwise nothing is shown. -/
theorem C140_answer (hR : Binary R) {s : Sorts} (hs : s.Lawful) {cs : CommonSettings} (hstop : cs.useStops = false)
    {lv : Level} (hl : Site lv) (A B : List (String × ℝ)) (past : List Window) (c : Window)
    (hw : ∀ v ∈ past ++ [c], WholeDbm v.records) :
    let out := (zoneAnswerF R K s cs A B lv (zoneStateF R K s cs A B lv past) c).1
    (latest lv (past ++ [c]) = none → out.1.isEmpty = true ∧ out.2 = none) ∧
    ∀ v, latest lv (past ++ [c]) = some v → ∃ b t,
      Strongest (v.records.filter (fun m => (lv.transmitter m.data.id).isSome)) b ∧ lv.transmitter b = some t ∧
      let shown := (cs.useGpsOutsideMap = true ∨ Estim.Box.Covers lv.geometry.boundingBox ⟨t.point.x, t.point.y⟩) ∧
        c.ts - v.ts < millisF R cs.deadReckoningTime
      (shown → out.1.isEmpty = false ∧ out.1.levelId = lv.id ∧ out.1.ts = c.ts ∧ out.1.provider = .INDOOR ∧
        WithinCm (min (max t.point.x lv.geometry.boundingBox.minCorner.x) lv.geometry.boundingBox.maxCorner.x) out.1.x ∧
        WithinCm (min (max t.point.y lv.geometry.boundingBox.minCorner.y) lv.geometry.boundingBox.maxCorner.y) out.1.y ∧
        ∃ g, out.2 = some g ∧ Named lv.bindingPoint ⟨out.1.x, out.1.y⟩ g) ∧
      (¬ shown → out.1.isEmpty = true ∧ out.2 = none) := by
  intro out
  have hbox : Sane lv.geometry.boundingBox := ⟨hl.x, hl.y, by linarith [hl.x0], by linarith [hl.y0], by linarith [hl.x1], by linarith [hl.y1]⟩
  have hst : (fillZoneF R s A B lv (zoneStateF R K s cs A B lv past) c).indoorPos =
      match latest lv (past ++ [c]) with
      | none => Position.default
      | some v => (Estim.zonePosition A B lv v.ts (averagesF R s v.records)).2 := by
    rw [fill_eq R hR hs (hw c (by simp)), stored_eq R K hR hs cs A B lv past (fun d hd => hw d (by simp [hd])), latest_snoc]
    split_ifs <;> rfl
  have hout : out = (zoneAnswerF R K s cs A B lv (zoneStateF R K s cs A B lv past) c).1 := rfl
  unfold zoneAnswerF at hout
  dsimp only at hout
  generalize fillZoneF R s A B lv (zoneStateF R K s cs A B lv past) c = st at hout hst
  generalize st.indoorPos = q at hout hst
  constructor
  · intro hk
    rw [hk] at hst
    dsimp only at hst
    subst hst
    have he : (processedF R cs st Position.default c.ts c.motion lv).1 = Position.default := by
      unfold processedF
      dsimp only
      rw [if_pos (by rfl)]
    rw [he] at hout
    rw [hout]
    exact ⟨rfl, rfl⟩
  · intro v hv
    have hmem : v ∈ (past ++ [c]).filter (Hears lv) := List.mem_of_getLast? hv
    rw [List.mem_filter] at hmem
    obtain ⟨-, z2⟩ := C138_zone R hR hs (hw v hmem.1) A B lv v.ts
    obtain ⟨b, t, prec, rssi, hb, ht, hz, -, -⟩ := z2 ((hears_iff lv v).mp hmem.2)
    rw [hv] at hst
    dsimp only at hst
    rw [hz] at hst
    dsimp only at hst
    subst hst
    refine ⟨b, t, hb, ht, ?_, ?_⟩
    · rintro ⟨hin, hfresh⟩
      generalize hp : processedF R cs st ⟨t.point.x, t.point.y, lv.id, prec, v.ts, false, .INDOOR, 0⟩ c.ts c.motion lv = r at hout
      obtain ⟨p, st'⟩ := r
      have hacc : Accepted R cs lv ⟨⟨t.point.x, t.point.y, lv.id, prec, v.ts, false, .INDOOR, 0⟩, c.ts, c.motion⟩ :=
        ⟨rfl, hin, hfresh⟩
      obtain ⟨h1, h2, h3, h4, h5⟩ := C137_centimetres R hR hbox hacc (s := st) (Or.inl hstop) hp
      have hprov : p.provider = .INDOOR := by
        have h := accepted_eq R hacc st
        dsimp only at h
        rw [hp, Prod.mk.injEq] at h
        rw [h.1]
        unfold takeOverF
        dsimp only
        rw [if_neg (by simp [hstop])]
        rfl
      have cx0 : -9000 ≤ min (max t.point.x lv.geometry.boundingBox.minCorner.x) lv.geometry.boundingBox.maxCorner.x :=
        hl.x0.trans (le_min (le_max_right _ _) hl.x)
      have cx1 : min (max t.point.x lv.geometry.boundingBox.minCorner.x) lv.geometry.boundingBox.maxCorner.x ≤ 9000 :=
        (min_le_right _ _).trans hl.x1
      have cy0 : -9000 ≤ min (max t.point.y lv.geometry.boundingBox.minCorner.y) lv.geometry.boundingBox.maxCorner.y :=
        hl.y0.trans (le_min (le_max_right _ _) hl.y)
      have cy1 : min (max t.point.y lv.geometry.boundingBox.minCorner.y) lv.geometry.boundingBox.maxCorner.y ≤ 9000 :=
        (min_le_right _ _).trans hl.y1
      have hx : WithinCm _ p.x := shown_within R h4 cx0 cx1
      have hy : WithinCm _ p.y := shown_within R h5 cy0 cy1
      have hnamed := C128_to_geo R K ⟨p.x, p.y⟩ lv.bindingPoint hl.binding
        (by show |p.x| ≤ 10000; rw [abs_le]; constructor <;> linarith [hx.1, hx.2])
        (by show |p.y| ≤ 10000; rw [abs_le]; constructor <;> linarith [hy.1, hy.2])
      dsimp only at hout
      rw [if_neg (by simp [h1])] at hout
      rw [hout]
      exact ⟨h1, h2, h3, hprov, hx, hy, _, rfl, hnamed⟩
    · intro hin
      have he : (processedF R cs st ⟨t.point.x, t.point.y, lv.id, prec, v.ts, false, .INDOOR, 0⟩ c.ts c.motion lv).1 =
          Position.default := by
        unfold processedF
        dsimp only
        rw [if_neg (by simp)]
        by_cases h1 : isInsideMap cs ⟨t.point.x, t.point.y, lv.id, prec, v.ts, false, .INDOOR, 0⟩ lv
        · have h2 : ¬ c.ts - v.ts < millisF R cs.deadReckoningTime := fun h => hin ⟨h1, h⟩
          rw [if_neg (not_not.mpr h1), if_pos (not_lt.mp h2)]
        · rw [if_pos h1]
      rw [he] at hout
      rw [hout]
      exact ⟨rfl, rfl⟩

theorem takeOver_dev (cs : CommonSettings) (s : PostState) (d : ℝ) (p : Position) (ts : Int) :
    (takeOverF R cs { s with indoorDev := d } p ts).lastOut = (takeOverF R cs s p ts).lastOut := by
  unfold takeOverF
  by_cases h : cs.useStops = true ∧ stopDetectedF R cs s ts
  · have h' : cs.useStops = true ∧ stopDetectedF R cs { s with indoorDev := d } ts := h
    dsimp only
    rw [if_pos h, if_pos h']
    split_ifs <;> rfl
  · have h' : ¬ (cs.useStops = true ∧ stopDetectedF R cs { s with indoorDev := d } ts) := h
    dsimp only
    rw [if_neg h, if_neg h']

theorem processed_dev (cs : CommonSettings) (s : PostState) (d : ℝ) (fused : Position) (ts motion : Int) (lv : Level) :
    (processedF R cs { s with indoorDev := d } fused ts motion lv).1 = (processedF R cs s fused ts motion lv).1 := by
  have h : (if motion > 0 then { ({ s with indoorDev := d } : PostState) with lastStepTs := motion } else { s with indoorDev := d }) =
      { (if motion > 0 then { s with lastStepTs := motion } else s) with indoorDev := d } := by split_ifs <;> rfl
  unfold processedF
  dsimp only at h ⊢
  rw [h]
  generalize (if motion > 0 then { s with lastStepTs := motion } else s) = s1
  split_ifs
  all_goals first | rfl | exact congrArg (fitInBoxF R lv.geometry.boundingBox) (takeOver_dev R cs s1 d fused ts)

/-- **C140, the same chain.** Without rounding the place that is shown is the one of the exact model of the post-processing:
`fusePositions` with no satellite position, then `getProcessedPosition`. -/
theorem C140_exact {cs : CommonSettings} (h1 : cs.useSmoothing = false) (h2 : cs.useTimeSmoothing = false)
    (h3 : cs.useGraphProjection = false) (allowed : ℝ → ℝ → Prop) (s : Sorts) (A B : List (String × ℝ)) (lv : Level) {st : PostState}
    (hst : st.outdoorPos.isEmpty = true) (c : Window) (status : NavigationStatus) :
    let found := (Estim.zonePosition A B lv c.ts (averagesF exact s c.records)).2
    let fused := fusePositions cs st c.ts found Position.default status
    (getProcessedPosition cs allowed fused.2 fused.1 c.ts c.motion lv).map Prod.fst =
      some (zoneAnswerF exact K s cs A B lv st c).1.1 := by
  intro found fused
  rw [C137_exact h1 h2 h3, Option.map_some]
  congr 1
  have hfill : fused.2 = fillIndoor cs st found := rfl
  have hch : fused.1 = (fillIndoor cs st found).indoorPos := by
    show chooseFused cs (fillIndoor cs st found) c.ts found Position.default status = _
    have ho : (fillIndoor cs st found).outdoorPos.isEmpty = true := by
      unfold fillIndoor
      split_ifs <;> exact hst
    unfold chooseFused
    rw [if_neg (by simp [Position.default])]
    split_ifs with a b
    · unfold fillIndoor
      rw [if_neg (by simp [a.2.1])]
    · rfl
    all_goals exact absurd (Or.inr ho) b
  rw [hfill, hch]
  unfold zoneAnswerF fillZoneF fillIndoor
  dsimp only
  show (processedF exact cs (if found.isEmpty = true then st else _) _ c.ts c.motion lv).1 =
    (processedF exact cs (if found.isEmpty = true then st else { st with indoorPos := found })
      (if found.isEmpty = true then st else { st with indoorPos := found }).indoorPos c.ts c.motion lv).1
  split_ifs with he
  · rfl
  · exact processed_dev exact cs { st with indoorPos := found } _ found c.ts c.motion lv

/-- The two beacons of the example of C138 on a floor of ten metres. -/
noncomputable def smallFloor (i j : String) : Level :=
  { twoBeacons i j with geometry := ⟨[], ⟨⟨0, 0⟩, ⟨10, 10⟩⟩, []⟩, bindingPoint := ⟨55, 37⟩ }

theorem small_site (i j : String) : Site (smallFloor i j) := by
  refine ⟨?_, ?_, ?_, ?_, ?_, ?_, ?_⟩
  all_goals try (norm_num [smallFloor]; done)
  refine ⟨by norm_num [smallFloor], ?_, by norm_num [smallFloor]⟩
  show 1 / 50 ≤ Real.cos (55 * Real.pi / 180)
  have h : Real.cos (Real.pi / 3) ≤ Real.cos (55 * Real.pi / 180) :=
    Real.cos_le_cos_of_nonneg_of_le_pi (by positivity) (by linarith [Real.pi_pos]) (by linarith [Real.pi_pos])
  rw [Real.cos_pi_div_three] at h
  linarith

/-- Two windows: the window of the example of C138, and three seconds later one in which nothing was heard.  The second is answered by
the second beacon. -/
example {i j : String} (h : i < j) (A B : List (String × ℝ)) :
    let cs : CommonSettings := { useSmoothing := false }
    let st := zoneStateF nearest nearestCosine insertionSorts cs A B (smallFloor i j) [⟨wholeWindow i j, 1000, 0⟩]
    let out := (zoneAnswerF nearest nearestCosine insertionSorts cs A B (smallFloor i j) st ⟨[], 4000, 0⟩).1
    out.1.isEmpty = false ∧ WithinCm 9 out.1.x ∧ WithinCm 9 out.1.y ∧ ∃ g, out.2 = some g := by
  intro cs st out
  have hi : (smallFloor i j).transmitter i = some ⟨i, ⟨1, 1, 0⟩, ⟨-59, 10, 0⟩, .BEACON⟩ := two_a h
  have hj : (smallFloor i j).transmitter j = some ⟨j, ⟨9, 9, 0⟩, ⟨-59, 10, 0⟩, .BEACON⟩ := two_b h
  have hk : (wholeWindow i j).filter (fun m => ((smallFloor i j).transmitter m.data.id).isSome) = wholeWindow i j := by
    simp [wholeWindow, beacon, hi, hj]
  have hd : millisF nearest cs.deadReckoningTime = 5000 := millis_int 5000 (by norm_num) (by norm_num) _ (by norm_num [cs])
  have hlast : latest (smallFloor i j) ([⟨wholeWindow i j, 1000, 0⟩] ++ [⟨[], 4000, 0⟩]) = some ⟨wholeWindow i j, 1000, 0⟩ := by
    have h1 : Hears (smallFloor i j) ⟨wholeWindow i j, 1000, 0⟩ = true := by
      rw [hears_iff, hk]
      simp [wholeWindow]
    have h2 : Hears (smallFloor i j) ⟨[], 4000, 0⟩ = false := rfl
    rw [latest_snoc, h2]
    simp [latest, h1]
  obtain ⟨b, t, h1, h2, h3⟩ := (C140_answer nearest nearestCosine C137_nearest insertionSorts_lawful (cs := cs) rfl (small_site i j)
    A B [⟨wholeWindow i j, 1000, 0⟩] ⟨[], 4000, 0⟩ (by
      intro v hv
      simp only [List.cons_append, List.nil_append, List.mem_cons, List.not_mem_nil, or_false] at hv
      rcases hv with rfl | rfl
      · exact whole_window
      · exact ⟨by simp, by simp⟩)).2 _ hlast
  dsimp only at h1 h3
  rw [hk] at h1
  obtain ⟨⟨m, hm, rfl⟩, h5⟩ := h1
  have hb : m.data.id = j := by
    have h6 := h5 (beacon j (-60)) (by simp [wholeWindow])
    simp only [wholeWindow, List.mem_cons, List.not_mem_nil, or_false] at hm
    have ma : Nav.meanRssi (wholeWindow i j) i = -61 := by
      simp [Nav.meanRssi, ofTransmitter, wholeWindow, beacon, mean, h.ne']; norm_num
    have mb : Nav.meanRssi (wholeWindow i j) j = -121 / 2 := by
      simp [Nav.meanRssi, ofTransmitter, wholeWindow, beacon, mean, h.ne]; norm_num
    rcases hm with rfl | rfl | rfl | rfl | rfl <;> simp only [beacon] at h6 ⊢ <;> rw [ma, mb] at h6 <;> norm_num at h6
  rw [hb, hj, Option.some.injEq] at h2
  subst h2
  obtain ⟨a1, -, -, -, a2, a3, g, a4, -⟩ := h3.1 ⟨Or.inr (by norm_num [Estim.Box.Covers, smallFloor]), by rw [hd]; norm_num⟩
  have e : min (max (9 : ℝ) 0) 10 = 9 := by norm_num
  refine ⟨a1, ?_, ?_, g, a4⟩
  · have := a2; rwa [show min (max (9 : ℝ) (smallFloor i j).geometry.boundingBox.minCorner.x)
      (smallFloor i j).geometry.boundingBox.maxCorner.x = 9 from e] at this
  · have := a3; rwa [show min (max (9 : ℝ) (smallFloor i j).geometry.boundingBox.minCorner.y)
      (smallFloor i j).geometry.boundingBox.maxCorner.y = 9 from e] at this

end Verif.Fp
