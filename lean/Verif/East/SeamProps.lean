import Verif.East.SeamSpec
import Verif.Outdoor.Props
import Verif.Nav.Examples
import Verif.MapLoad.FileModel

/-!
# Property theorems for C143: a building across the antimeridian
-/

namespace Verif.East

open Verif.Levels Verif.Nav
open Verif.Geo (XYPoint GeoPoint ValidLon)
open Verif.Knn (Result)

/-- The metres per degree of longitude. -/
noncomputable def eastScale (g : GeoLevel) : ℝ := Geo.latitudeCircumference (getBinding g) / 360

theorem scale_pos {g : GeoLevel} (hcos : 0 < Real.cos (Geo.degToRad (getBinding g).latitude)) : 0 < eastScale g := by
  unfold eastScale Geo.latitudeCircumference Geo.equatorCircumference
  positivity

theorem pole_pos : 0 < Geo.poleCircumference / 360 := by
  unfold Geo.poleCircumference
  positivity

theorem binding_eq (g : GeoLevel) : getBinding g = ⟨min g.geometry.boundingBox.minCorner.x g.geometry.boundingBox.maxCorner.x,
    min g.geometry.boundingBox.minCorner.y g.geometry.boundingBox.maxCorner.y⟩ := rfl

theorem local_x (g : GeoLevel) (p : GeoPoint) :
    (Geo.gpsToLocal p (getBinding g)).x = Geo.normalizeLongitude (p.longitude - (getBinding g).longitude) * eastScale g := rfl

theorem box_eq (bg : BoostGeometry) (g : GeoLevel) : (localGeometry bg (getBinding g) g.geometry).boundingBox =
    correctBox (localBox (getBinding g) g.geometry.boundingBox) := rfl

/-- **C143, the box.** The local box has the width of the shorter way round and the height of the building; one edge of it is the
axis to which the coordinates refer. That is the western edge, and of a building across the antimeridian the eastern one. -/
theorem C143_box (bg : BoostGeometry) (g : GeoLevel) (hb : ValidBox g.geometry.boundingBox)
    (hcos : 0 < Real.cos (Geo.degToRad (getBinding g).latitude)) :
    let b := (localGeometry bg (getBinding g) g.geometry).boundingBox
    b.maxCorner.x - b.minCorner.x = degrees g.geometry.boundingBox * (Geo.latitudeCircumference (getBinding g) / 360) ∧
    b.minCorner.y = 0 ∧
    b.maxCorner.y = |g.geometry.boundingBox.maxCorner.x - g.geometry.boundingBox.minCorner.x| * (Geo.poleCircumference / 360) ∧
    (¬ Across g.geometry.boundingBox → b.minCorner.x = 0) ∧ (Across g.geometry.boundingBox → b.maxCorner.x = 0) := by
  have hS := scale_pos hcos
  have hP := pole_pos
  rw [show Geo.latitudeCircumference (getBinding g) / 360 = eastScale g from rfl, box_eq]
  dsimp only
  simp only [correctBox, localBox, local_x]
  simp only [Geo.gpsToLocal, binding_eq]
  generalize eastScale g = S at *
  generalize Geo.poleCircumference / 360 = P at *
  obtain ⟨⟨h1, h2⟩, h3, h4⟩ := hb
  unfold degrees Across
  generalize g.geometry.boundingBox.minCorner.y = u at *
  generalize g.geometry.boundingBox.maxCorner.y = v at *
  generalize g.geometry.boundingBox.minCorner.x = s at *
  generalize g.geometry.boundingBox.maxCorner.x = t at *
  have hz : Geo.normalizeLongitude 0 = 0 := by unfold Geo.normalizeLongitude; norm_num
  have lat : min ((s - min s t) * P) ((t - min s t) * P) = 0 ∧ max ((s - min s t) * P) ((t - min s t) * P) = |t - s| * P := by
    rcases le_total s t with h | h
    · rw [min_eq_left h, abs_of_nonneg (by linarith), sub_self, zero_mul]
      have : 0 ≤ (t - s) * P := mul_nonneg (by linarith) hP.le
      exact ⟨min_eq_left this, max_eq_right this⟩
    · rw [min_eq_right h, abs_of_nonpos (by linarith), sub_self, zero_mul]
      have : 0 ≤ (s - t) * P := mul_nonneg (by linarith) hP.le
      refine ⟨min_eq_right this, ?_⟩
      rw [max_eq_left this]
      ring
  refine ⟨?_, lat.1, lat.2, ?_, ?_⟩
  all_goals
    rcases le_total u v with h | h
    · rw [min_eq_left h, abs_of_nonneg (by linarith), sub_self, hz, zero_mul]
      unfold Geo.normalizeLongitude
      by_cases hx : 180 < v - u
      · have e : (v - u - 360) * S ≤ 0 := mul_nonpos_of_nonpos_of_nonneg (by linarith) hS.le
        simp only [if_pos hx, gt_iff_lt]
        first
        | rw [max_eq_left e, min_eq_right e]; ring
        | exact fun h => absurd hx h
        | exact fun _ => max_eq_left e
      · have e : 0 ≤ (v - u) * S := mul_nonneg (by linarith) hS.le
        simp only [if_neg hx, gt_iff_lt, if_neg (show ¬ v - u ≤ -180 by linarith)]
        first
        | rw [max_eq_right e, min_eq_left e]; ring
        | exact fun _ => min_eq_left e
        | exact fun h => absurd h hx
    · rw [min_eq_right h, abs_of_nonpos (by linarith), sub_self, hz, zero_mul]
      unfold Geo.normalizeLongitude
      by_cases hx : 180 < u - v
      · have e : (u - v - 360) * S ≤ 0 := mul_nonpos_of_nonpos_of_nonneg (by linarith) hS.le
        simp only [if_pos hx, gt_iff_lt, if_pos (show 180 < -(v - u) by linarith)]
        first
        | rw [max_eq_right e, min_eq_left e]; ring
        | exact fun h => absurd (show 180 < -(v - u) by linarith) h
        | exact fun _ => max_eq_right e
      · have e : 0 ≤ (u - v) * S := mul_nonneg (by linarith) hS.le
        simp only [if_neg hx, gt_iff_lt, if_neg (show ¬ u - v ≤ -180 by linarith), if_neg (show ¬ 180 < -(v - u) by linarith)]
        first
        | rw [max_eq_left e, min_eq_right e]; ring
        | exact fun _ => min_eq_right e
        | exact fun h => absurd h (show ¬ 180 < -(v - u) by linarith)

/-- **C143, the places.** The local box contains the image of a place if and only if the place lies in the box of the floor plan,
the shorter way round. -/
theorem C143_places (bg : BoostGeometry) (g : GeoLevel) (hb : ValidBox g.geometry.boundingBox)
    (hcos : 0 < Real.cos (Geo.degToRad (getBinding g).latitude)) (p : GeoPoint) (hp : ValidLon p.longitude) :
    (localGeometry bg (getBinding g) g.geometry).boundingBox.Contains (Geo.gpsToLocal p (getBinding g)) ↔
      Between g.geometry.boundingBox p := by
  have hS := scale_pos hcos
  have hP := pole_pos
  unfold Box.Contains
  rw [box_eq, local_x]
  simp only [correctBox, localBox, local_x]
  simp only [Geo.gpsToLocal, binding_eq]
  generalize eastScale g = S at *
  generalize Geo.poleCircumference / 360 = P at *
  obtain ⟨⟨h1, h2⟩, h3, h4⟩ := hb
  obtain ⟨h5, h6⟩ := hp
  unfold Between Across
  generalize g.geometry.boundingBox.minCorner.y = u at *
  generalize g.geometry.boundingBox.maxCorner.y = v at *
  generalize g.geometry.boundingBox.minCorner.x = s at *
  generalize g.geometry.boundingBox.maxCorner.x = t at *
  obtain ⟨a, o⟩ := p
  dsimp only at *
  have hz : Geo.normalizeLongitude 0 = 0 := by unfold Geo.normalizeLongitude; norm_num
  have mono : ∀ x y : ℝ, x * S ≤ y * S ↔ x ≤ y := fun x y => mul_le_mul_iff_left₀ hS
  have monoP : ∀ x y : ℝ, x * P ≤ y * P ↔ x ≤ y := fun x y => mul_le_mul_iff_left₀ hP
  have minS : ∀ x y : ℝ, min (x * S) (y * S) = min x y * S := fun x y => (min_mul_of_nonneg _ _ hS.le).symm
  have maxS : ∀ x y : ℝ, max (x * S) (y * S) = max x y * S := fun x y => (max_mul_of_nonneg _ _ hS.le).symm
  have minP : ∀ x y : ℝ, min (x * P) (y * P) = min x y * P := fun x y => (min_mul_of_nonneg _ _ hP.le).symm
  have maxP : ∀ x y : ℝ, max (x * P) (y * P) = max x y * P := fun x y => (max_mul_of_nonneg _ _ hP.le).symm
  rw [minS, maxS, minP, maxP, mono, mono, monoP, monoP]
  have lat : (min (s - min s t) (t - min s t) ≤ a - min s t ∧ a - min s t ≤ max (s - min s t) (t - min s t)) ↔
      (min s t ≤ a ∧ a ≤ max s t) := by
    rw [min_sub_sub_right, max_sub_sub_right, sub_le_sub_iff_right, sub_le_sub_iff_right]
  rw [← lat, ← and_assoc, and_comm]
  refine and_congr_right fun _ => ?_
  rcases le_total u v with h | h
  · rw [min_eq_left h, max_eq_right h, abs_of_nonneg (by linarith), sub_self, hz]
    unfold Geo.normalizeLongitude
    by_cases hx : 180 < v - u
    · simp only [if_pos hx, gt_iff_lt]
      rw [min_eq_right (by linarith), max_eq_left (by linarith)]
      split_ifs <;> constructor <;> intro hh
      · exact .inl (by linarith [hh.1])
      · rcases hh with hh | hh <;> constructor <;> linarith
      · exact .inr (by linarith [hh.2])
      · rcases hh with hh | hh <;> constructor <;> linarith
      · exact .inr (by linarith [hh.2])
      · rcases hh with hh | hh <;> constructor <;> linarith
    · simp only [if_neg hx, gt_iff_lt, if_neg (show ¬ v - u ≤ -180 by linarith)]
      rw [min_eq_left (by linarith), max_eq_right (by linarith)]
      split_ifs <;> constructor <;> intro hh <;> constructor <;> linarith [hh.1, hh.2]
  · rw [min_eq_right h, max_eq_left h, abs_of_nonpos (by linarith), sub_self, hz, neg_sub]
    unfold Geo.normalizeLongitude
    by_cases hx : 180 < u - v
    · simp only [if_pos hx, gt_iff_lt]
      rw [min_eq_left (by linarith), max_eq_right (by linarith)]
      split_ifs <;> constructor <;> intro hh
      · exact .inl (by linarith [hh.1])
      · rcases hh with hh | hh <;> constructor <;> linarith
      · exact .inr (by linarith [hh.2])
      · rcases hh with hh | hh <;> constructor <;> linarith
      · exact .inr (by linarith [hh.2])
      · rcases hh with hh | hh <;> constructor <;> linarith
    · simp only [if_neg hx, gt_iff_lt, if_neg (show ¬ u - v ≤ -180 by linarith)]
      rw [min_eq_right (by linarith), max_eq_left (by linarith)]
      split_ifs <;> constructor <;> intro hh <;> constructor <;> linarith [hh.1, hh.2]

/-- **C143, a box taken from an outline.** When the box of a floor plan across the antimeridian is the smallest and the greatest
latitude and longitude of its outline, as the loader makes it, then the local box contains the outline only if every point of it lies
on one of two meridians. Any other outline sticks out. -/
theorem C143_outline (bg : BoostGeometry) (g : GeoLevel) (hb : ValidBox g.geometry.boundingBox)
    (hcos : 0 < Real.cos (Geo.degToRad (getBinding g).latitude)) (hx : Across g.geometry.boundingBox) (outline : List GeoPoint)
    (hin : ∀ p ∈ outline, ValidLon p.longitude ∧ g.geometry.boundingBox.ContainsGeo p) :
    (∀ p ∈ outline, (localGeometry bg (getBinding g) g.geometry).boundingBox.Contains (Geo.gpsToLocal p (getBinding g))) ↔
      ∀ p ∈ outline, p.longitude = g.geometry.boundingBox.minCorner.y ∨ p.longitude = g.geometry.boundingBox.maxCorner.y := by
  refine forall₂_congr fun p hp => ?_
  obtain ⟨h1, h2, h3, h4, h5⟩ := hin p hp
  rw [C143_places bg g hb hcos p h1]
  unfold Between
  rw [if_pos hx]
  refine ⟨fun h => ?_, fun h => ⟨⟨h2, h3⟩, ?_⟩⟩
  · rcases h.2 with h | h
    · have e := le_antisymm h5 h
      rcases max_choice g.geometry.boundingBox.minCorner.y g.geometry.boundingBox.maxCorner.y with k | k <;> rw [k] at e
      · exact .inl e
      · exact .inr e
    · have e := le_antisymm h h4
      rcases min_choice g.geometry.boundingBox.minCorner.y g.geometry.boundingBox.maxCorner.y with k | k <;> rw [k] at e
      · exact .inl e
      · exact .inr e
  · rcases le_total g.geometry.boundingBox.minCorner.y g.geometry.boundingBox.maxCorner.y with k | k
    · rw [max_eq_right k, min_eq_left k]
      rcases h with h | h <;> simp [h]
    · rw [max_eq_left k, min_eq_right k]
      rcases h with h | h <;> simp [h]

/-- The floor that a floor plan becomes. -/
theorem loaded_parts {bg : BoostGeometry} {g : GeoLevel} {l : Level} (h : addGeoLevel bg emptyCollector g = .ok (collect [l])) :
    l.id = g.id ∧ l.bindingPoint = getBinding g ∧ l.geometry = localGeometry bg (getBinding g) g.geometry := by
  unfold addGeoLevel at h
  dsimp only at h
  split at h
  · cases h
  · injection h with h
    have e := congrArg LevelCollector.levels h
    rw [collect_levels] at e
    simp only [addLevel, emptyCollector, List.nil_append, List.cons.injEq, and_true] at e
    rw [← e]
    exact ⟨rfl, rfl, rfl⟩

/-- **C143, a satellite fix.** The first satellite fix of a client of one floor is answered with its own place if it lies in the box
of the floor plan, the shorter way round, and with no place otherwise. (The three-sigma filter is off, places outside the map are not
wanted and the receiver tells no number of satellites below the required one.) -/
theorem C143_fix {bg : BoostGeometry} {g : GeoLevel} {l : Level} {c : Cfg} (hc : Client [l] c)
    (hl : addGeoLevel bg emptyCollector g = .ok (collect [l])) (hb : ValidBox g.geometry.boundingBox)
    (hcos : 0 < Real.cos (Geo.degToRad (getBinding g).latitude)) (hs : c.cs.useGpsSigmaFilter = false)
    (ho : c.cs.useGpsOutsideMap = false) (mem : Garbage) (hm : mem.nmea.data.satellitesNumber = 0) (ts : Int) (lat lon r : ℝ)
    (hv : ValidLon lon) :
    ∃ s out dbg, navigate c (init c mem) [⟨.sensor ⟨.LOCATION, ⟨lat, lon, r⟩⟩, ts⟩] = .ok (s, [(out, dbg)]) ∧
      (Between g.geometry.boundingBox ⟨lat, lon⟩ →
        out.status = .OK ∧ out.posLevel = g.id ∧ out.posLatitude = lat ∧ out.posLongitude = lon) ∧
      (¬ Between g.geometry.boundingBox ⟨lat, lon⟩ → out.status = .NO_LEVEL ∧ Blank out) := by
  obtain ⟨l1, l2, l3⟩ := loaded_parts hl
  set m : Measurement := ⟨.sensor ⟨.LOCATION, ⟨lat, lon, r⟩⟩, ts⟩ with hmd
  set k : Estim.Call := ⟨ts, ⟨⟨.LOCATION, ⟨lat, lon, r⟩⟩, ts⟩, mem.nmea, false⟩ with hk
  have hcalls : Outdoor.calls mem (taken [] ++ [m]) = [k] := by
    rw [show taken [] ++ [m] = [] ++ [m] from rfl, Outdoor.calls_snoc]
    simp [Outdoor.calls, hk, hmd, lastSensor, lastNmea]
  have hno : ∀ e ∈ taken [] ++ [m], ¬ Heard [l] c.cs e := by
    rintro e he ⟨d, hd, -⟩
    rw [show taken [] ++ [m] = [m] from rfl, List.mem_singleton] at he
    rw [he] at hd
    cases hd
  have ht : Outdoor.Timed c.cs (taken [] ++ [m]) := fun h => by rw [hs] at h; cases h
  have hbl : ValidLon l.bindingPoint.longitude := by
    rw [l2, binding_eq]
    obtain ⟨h1, h2⟩ := hb
    rcases min_choice g.geometry.boundingBox.minCorner.y g.geometry.boundingBox.maxCorner.y with e | e
    · rw [show (⟨_, _⟩ : GeoPoint).longitude = _ from rfl, e]; exact h1
    · rw [show (⟨_, _⟩ : GeoPoint).longitude = _ from rfl, e]; exact h2
  have cover : Estim.FirstCovering c.cs (collect [l]) k l ↔ Between g.geometry.boundingBox ⟨lat, lon⟩ := by
    rw [← C143_places bg g hb hcos ⟨lat, lon⟩ hv]
    constructor
    · rintro ⟨a, b, e, h1, h2⟩
      rcases h1 with h1 | h1
      · rw [l3] at h1
        unfold Estim.fixOn at h1
        rw [l2] at h1
        exact h1
      · rw [ho] at h1; cases h1
    · intro h
      refine ⟨[], [], by rw [collect_levels]; rfl, .inl ?_, by simp⟩
      rw [l3]
      unfold Estim.fixOn
      rw [l2]
      exact h
  have one : ∀ l', Outdoor.Accepted c.cs [l] [] k l' → l' = l ∧ Estim.FirstCovering c.cs (collect [l]) k l := by
    rintro l' ⟨-, h, -⟩
    have : l' = l := by
      obtain ⟨a, b, e, -⟩ := h
      rw [collect_levels] at e
      have : l' ∈ [l] := by rw [e]; simp
      exact List.mem_singleton.mp this
    rw [this] at h
    exact ⟨this, h⟩
  by_cases hB : Between g.geometry.boundingBox ⟨lat, lon⟩
  · have acc : Outdoor.Accepted c.cs [l] [] k l :=
      ⟨rfl, cover.mpr hB, fun _ hn => absurd hm hn, fun h => by rw [hs] at h; cases h⟩
    obtain ⟨s', out, dbg, a1, a2, -, -, a5, -, a7⟩ := Outdoor.C120_fix hc mem [] rfl m hno ht (k := k) (lv := l)
      (by rw [hcalls]; exact Outdoor.last_now (ks := []) acc)
    obtain ⟨b1, b2⟩ := a7 hbl (by rw [l2]; exact hcos.ne') hv
    exact ⟨s', out, dbg, a1, fun _ => ⟨a2, by rw [a5, l1], b1, b2⟩, fun h => absurd hB h⟩
  · obtain ⟨s', out, dbg, a1, a2, a3⟩ := Outdoor.C120_none hc mem [] rfl m hno ht (by
      rw [hcalls]
      intro a j b e l' h'
      cases a with
      | nil =>
        simp only [List.nil_append, List.cons.injEq] at e
        rw [← e.1] at h'
        exact hB (cover.mp (one l' h').2)
      | cons x xs => simp at e)
    exact ⟨s', out, dbg, a1, fun h => absurd h hB, fun _ => ⟨a2, a3⟩⟩

/-! ## A building with a step in its outline -/

/-- Its outline, 0.2 degrees wide across the antimeridian; two of its corners lie at 179.95 degrees. -/
noncomputable def stepOutline : List GeoPoint := [⟨0, 179.9⟩, ⟨0, -179.9⟩, ⟨0.1, -179.9⟩, ⟨0.1, 179.95⟩, ⟨0.05, 179.95⟩, ⟨0.05, 179.9⟩]

/-- The floor plan with the smallest and the greatest latitude and longitude of the outline. -/
noncomputable def stepPlan : GeoLevel where
  id := "A"
  transmitters := []
  referencePoints := []
  geometry := ⟨[⟨stepOutline.map fun p => ⟨p.latitude, p.longitude⟩, []⟩], ⟨⟨0, -179.9⟩, ⟨0.1, 179.95⟩⟩, []⟩
  graph := NavGraph.empty
  altitude := 0

/-- **C143, what fails.** For a building across the antimeridian whose outline has a step, the box that the loader takes from the outline
(the smallest and the greatest coordinates) holds no more than the part between the step and the eastern wall: the client answers a
satellite fix in the western part of the building with no place, although the fix lies on the outline. -/
theorem C143_step (bg : BoostGeometry) {l : Level} {c : Cfg} (hc : Client [l] c)
    (hl : addGeoLevel bg emptyCollector stepPlan = .ok (collect [l])) (hs : c.cs.useGpsSigmaFilter = false)
    (ho : c.cs.useGpsOutsideMap = false) (mem : Garbage) (hm : mem.nmea.data.satellitesNumber = 0) (ts : Int) (r : ℝ) :
    ∃ s out dbg, navigate c (init c mem) [⟨.sensor ⟨.LOCATION, ⟨0, 179.9, r⟩⟩, ts⟩] = .ok (s, [(out, dbg)]) ∧
      out.status = .NO_LEVEL ∧ Blank out := by
  have hb : getBinding stepPlan = ⟨0, -179.9⟩ := by
    rw [binding_eq]
    simp only [stepPlan]
    norm_num
  obtain ⟨s, out, dbg, h1, -, h3⟩ := C143_fix hc hl
    (by unfold ValidBox ValidLon stepPlan; norm_num) (by rw [hb]; simp [Geo.degToRad]) hs ho mem hm ts 0 179.9 r
    (by unfold ValidLon; norm_num)
  refine ⟨s, out, dbg, h1, h3 ?_⟩
  have hx : Across stepPlan.geometry.boundingBox := by
    simp only [Across, stepPlan]
    rw [abs_of_nonneg] <;> norm_num
  unfold Between
  rw [if_pos hx]
  simp only [stepPlan]
  norm_num

/-- The box of `stepPlan` is the smallest and the greatest latitude and longitude of its outline, and two corners of the outline lie
on neither of its meridians, so that `C143_outline` applies. -/
theorem step_box : (∀ p ∈ stepOutline, ValidLon p.longitude ∧ stepPlan.geometry.boundingBox.ContainsGeo p) ∧
    (∀ q ∈ [stepPlan.geometry.boundingBox.minCorner, stepPlan.geometry.boundingBox.maxCorner],
      (∃ p ∈ stepOutline, p.latitude = q.x) ∧ ∃ p ∈ stepOutline, p.longitude = q.y) := by
  constructor
  · simp only [stepOutline, stepPlan, List.mem_cons, List.not_mem_nil, or_false, forall_eq_or_imp, forall_eq, ValidLon, Box.ContainsGeo]
    rw [min_eq_left (by norm_num), max_eq_right (by norm_num), min_eq_left (by norm_num), max_eq_right (by norm_num)]
    norm_num
  · simp only [stepOutline, stepPlan, List.mem_cons, List.not_mem_nil, or_false, forall_eq_or_imp, forall_eq, exists_eq_or_imp,
      exists_eq_left]
    norm_num

/-- The floor that a floor plan with the name "A" and no graph becomes, and a client with the default settings that has this floor. -/
theorem one_floor (bg : BoostGeometry) (g : GeoLevel) (hid : g.id = "A") (hg : g.graph = NavGraph.empty) :
    ∃ l c, addGeoLevel bg emptyCollector g = .ok (collect [l]) ∧ Client [l] c ∧ c.cs = {} := by
  obtain ⟨ls, h1, h2, h3⟩ := good_map bg [g] (by simp) (by simp [hid]) (by
    intro x hx
    rw [List.mem_singleton] at hx
    exact ⟨[], by rw [hx, hg]; rfl⟩)
  obtain ⟨l, rfl⟩ : ∃ l, ls = [l] := by
    have := congrArg List.length h3
    simp at this
    exact List.length_eq_one_iff.mp this
  have hl : l.id = "A" := by simpa [hid] using h3
  refine ⟨l, { exCfg with levels := collect [l], pre := Radio.mkCfg (collect [l]) {} }, ?_, ⟨h2, ⟨fun h => (by cases h), fun h => (by cases h)⟩,
    sortsBy_insertionSort _, Radio.insertionSorts_lawful, [("A", ⟨-59, 10⟩)], ?_⟩, rfl⟩
  · simpa using h1
  · have hz : Estim.zoneParams [("A", ⟨-59, 10⟩)] (collect [l]) = some ([("A", -59)], [("A", 10)]) := by
      simp [Estim.zoneParams, collect_levels, hl, List.foldlM, StdMap.find?, StdMap.set, StdMap.insertSorted]
    unfold mkCfg createPositionEstimator
    rw [if_neg (by simp [exCfg])]
    have : Estim.zoneParams [("A", ⟨-59, 10⟩)] (collect [l]) = some ([("A", -59)], [("A", 10)]) := hz
    rw [this]
    simp [exCfg, createLevelEstimator]

/-- **C143** is about possible clients: one with the default settings on the floor with the step answers a fix between the step and
the eastern wall with its place, and one on the outline with none. -/
example (bg : BoostGeometry) (t : SensorType) : ∃ c : Cfg,
    (∃ s out dbg, navigate c (init c (exMemory t)) [⟨.sensor ⟨.LOCATION, ⟨0.01, -179.99, 5⟩⟩, 1⟩] = .ok (s, [(out, dbg)]) ∧
      out.status = .OK ∧ out.posLevel = "A" ∧ out.posLatitude = 0.01 ∧ out.posLongitude = -179.99) ∧
    ∃ s out dbg, navigate c (init c (exMemory t)) [⟨.sensor ⟨.LOCATION, ⟨0, 179.9, 5⟩⟩, 1⟩] = .ok (s, [(out, dbg)]) ∧
      out.status = .NO_LEVEL := by
  obtain ⟨l, c, h1, h2, h3⟩ := one_floor bg stepPlan rfl rfl
  refine ⟨c, ?_, ?_⟩
  · have hb : getBinding stepPlan = ⟨0, -179.9⟩ := by
      rw [binding_eq]
      simp only [stepPlan]
      norm_num
    obtain ⟨s, out, dbg, a1, a2, -⟩ := C143_fix h2 h1 (by unfold ValidBox ValidLon stepPlan; norm_num)
      (by rw [hb]; simp [Geo.degToRad]) (by rw [h3]) (by rw [h3]) (exMemory t) rfl 1 0.01 (-179.99) 5
      (by unfold ValidLon; norm_num)
    refine ⟨s, out, dbg, a1, a2 ?_⟩
    have hx : Across stepPlan.geometry.boundingBox := by
      simp only [Across, stepPlan]
      rw [abs_of_nonneg] <;> norm_num
    unfold Between
    rw [if_pos hx]
    simp only [stepPlan]
    rw [min_eq_left (by norm_num), max_eq_right (by norm_num), min_eq_left (by norm_num), max_eq_right (by norm_num)]
    norm_num
  · obtain ⟨s, out, dbg, a1, a2, -⟩ := C143_step bg h2 h1 (by rw [h3]) (by rw [h3]) (exMemory t) rfl 1 5
    exact ⟨s, out, dbg, a1, a2⟩

end Verif.East
