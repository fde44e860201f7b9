import Verif.Trail.Props
import Verif.Track.SettleProps

/-!
# C132: the fixes of a history are determined, and the client comes to rest
-/

namespace Verif.Trail

open Verif.Levels Verif.Nav Verif.Floors
open Verif.Geo (XYPoint)
open Verif.Knn (Result)
open Verif.Track
open Verif.Smooth (Mild)

/-- A signal with nothing but id, level and power. -/
noncomputable def core (m : RadioData) : RadioData := ⟨.BEACON, m.id, m.rssi, m.power, 0, 0⟩

theorem weights_core (fps : List Knn.Fingerprint) (msr : List RadioData) (b : Bool) :
    Knn.calcRpWeightsKnn fps (msr.map core) b = Knn.calcRpWeightsKnn fps msr b := by
  have e : ∀ m, Knn.trust (core m) = Knn.trust m := fun m => rfl
  unfold Knn.calcRpWeightsKnn Knn.calcTransmittersWeights Knn.rpStatistics
  rw [List.foldl_map, List.foldl_map]
  simp only [e]
  rfl

theorem rpWeight_core {lv : Level} {cs : CommonSettings} {avg avg' : List RadioData} (h : avg.map core = avg'.map core) (rp : String) :
    rpWeight lv cs avg rp = rpWeight lv cs avg' rp := by
  rw [← weightOf_eq, ← weightOf_eq, ← weights_core, h, weights_core]

/-- Every transmitter is heard with one power in the window. -/
def OnePower (win : List RadioMeasurement) : Prop :=
  ∀ m ∈ win, ∀ m' ∈ win, m.data.id = m'.data.id → m.data.power = m'.data.power

theorem averages_core {lv : Level} {win : List RadioMeasurement} (ho : OnePower win) {avg avg' : List RadioData} (h : MapAverages lv win avg)
    (h' : MapAverages lv win avg') : avg.map core = avg'.map core := by
  have hids : avg.map RadioData.id = avg'.map RadioData.id := by
    refine List.Perm.eq_of_pairwise (le := (· < ·)) (fun a b _ _ h1 h2 => absurd h2 (lt_asymm h1)) h.sorted h'.sorted ?_
    refine (List.perm_ext_iff_of_nodup (h.sorted.imp (fun h => ne_of_lt h)) (h'.sorted.imp (fun h => ne_of_lt h))).mpr ?_
    intro id
    rw [List.mem_map, List.mem_map]
    exact (h.ids id).trans (h'.ids id).symm
  have hlen : avg.length = avg'.length := by simpa using congrArg List.length hids
  refine List.ext_getElem (by simpa using hlen) ?_
  intro i h1 h2
  rw [List.length_map] at h1 h2
  rw [List.getElem_map, List.getElem_map]
  have hid : avg[i].id = avg'[i].id := by
    have := List.getElem_of_eq hids (i := i) (by simpa using h1)
    simpa using this
  obtain ⟨m, hm, m1, m2⟩ := h.power _ (List.getElem_mem h1)
  obtain ⟨m', hm', m1', m2'⟩ := h'.power _ (List.getElem_mem h2)
  have hpow : avg[i].power = avg'[i].power := by
    rw [← m2, ← m2']
    exact ho m hm m' hm' (by rw [m1, m1', hid])
  unfold core
  rw [h.rssi _ (List.getElem_mem h1), h'.rssi _ (List.getElem_mem h2), hid, hpow]

theorem placeOf_unique {s : Triang.Sorts} {lv : Level} (hnd : (lv.radiomap.referencePoints.map (·.id)).Nodup) {cs : CommonSettings}
    {avg avg' : List RadioData} (h : avg.map core = avg'.map core) {p q : XYPoint} (hp : PlaceOf s lv cs avg p) (hq : PlaceOf s lv cs avg' q) :
    p = q := by
  have hrp := rpWeight_core (lv := lv) (cs := cs) h
  have hmw : ∀ t, meshWeight lv cs avg t = meshWeight lv cs avg' t := by
    intro t; unfold meshWeight; rw [hrp, hrp, hrp]
  unfold PlaceOf at hp hq
  split_ifs at hp hq with ht
  swap
  · rw [hp, hq]
  obtain ⟨b, t, a, e, b1, a1, z1, c1⟩ := hp
  obtain ⟨b', t', a', e', b1', a1', z1', c1'⟩ := hq
  simp only [← hmw, ← hrp] at b1' a1' z1' c1'
  have htt : t = t' := by
    rw [e] at e'
    rcases List.append_eq_append_iff.mp e' with ⟨as, e1, e2⟩ | ⟨as, e1, e2⟩
    · cases as with
      | nil => simp only [List.nil_append, List.cons.injEq] at e2; exact e2.1
      | cons x as =>
        simp only [List.cons_append, List.cons.injEq] at e2
        have h1 := b1' t (by rw [e1, e2.1]; simp)
        have h2 := a1 t' (by rw [e2.2]; simp)
        linarith
    · cases as with
      | nil => simp only [List.nil_append, List.cons.injEq] at e2; exact e2.1.symm
      | cons x as =>
        simp only [List.cons_append, List.cons.injEq] at e2
        have h1 := b1 t' (by rw [e1, e2.1]; simp)
        have h2 := a1' t (by rw [e2.2]; simp)
        linarith
  subst htt
  by_cases hw : meshWeight lv cs avg t < 1 / 2 ^ 52
  · rw [z1 hw, z1' hw]
  · have hw' := not_lt.mp hw
    obtain ⟨x, hx, y, hy, z, hz, i1, i2, i3, -, q1, q2⟩ := c1 hw'
    obtain ⟨x', hx', y', hy', z', hz', i1', i2', i3', -, q1', q2'⟩ := c1' hw'
    have hinj : ∀ u ∈ lv.radiomap.referencePoints, ∀ v ∈ lv.radiomap.referencePoints, u.id = v.id → u = v := fun u hu v hv huv =>
      List.inj_on_of_nodup_map hnd hu hv huv
    have ex := hinj x hx x' hx' (i1.trans i1'.symm)
    have ey := hinj y hy y' hy' (i2.trans i2'.symm)
    have ez := hinj z hz z' hz' (i3.trans i3'.symm)
    subst ex ey ez
    have h0 : meshWeight lv cs avg t ≠ 0 := by
      have : (0 : ℝ) < 1 / 2 ^ 52 := by positivity
      linarith
    have e1 := mul_left_cancel₀ h0 (q1.trans q1'.symm)
    have e2 := mul_left_cancel₀ h0 (q2.trans q2'.symm)
    cases p; cases q
    simp only at e1 e2
    rw [e1, e2]

/-- **C132.** If the reference points of the floor have different ids and every transmitter is heard with one power in a window, the
place of the window is determined. -/
theorem C132_place_unique {s : Triang.Sorts} {lv : Level} (hnd : (lv.radiomap.referencePoints.map (·.id)).Nodup) {cs : CommonSettings}
    {win : List RadioMeasurement} (ho : OnePower win) {p q : XYPoint} (hp : PlaceIn s lv cs win p) (hq : PlaceIn s lv cs win q) : p = q := by
  obtain ⟨avg, h1, h2⟩ := hp
  obtain ⟨avg', h1', h2'⟩ := hq
  exact placeOf_unique hnd (averages_core ho h1 h1') h2 h2'

theorem windowFix_unique {s : Triang.Sorts} {lv : Level} (hnd : (lv.radiomap.referencePoints.map (·.id)).Nodup) {cs : CommonSettings}
    {w : Int × List RadioMeasurement} (ho : OnePower w.2) {a b : Option Fix} (ha : WindowFix s lv cs w a) (hb : WindowFix s lv cs w b) :
    a = b := by
  cases a with
  | none =>
    cases b with
    | none => rfl
    | some f =>
      obtain ⟨h1, -, h3, h4⟩ := hb
      obtain ⟨p, p1, p2⟩ := ha h1
      rw [C132_place_unique hnd ho p1 h3] at p2
      exact absurd h4 p2
  | some f =>
    obtain ⟨h1, h2, h3, h4⟩ := ha
    cases b with
    | none =>
      obtain ⟨p, p1, p2⟩ := hb h1
      rw [C132_place_unique hnd ho p1 h3] at p2
      exact absurd h4 p2
    | some f' =>
      obtain ⟨-, h2', h3', -⟩ := hb
      have e := C132_place_unique hnd ho h3 h3'
      cases f; cases f'
      simp only at h2 h2' e
      rw [h2, h2', e]

/-- **C132.** Then the fixes of the windows are determined. -/
theorem C132_fixes_unique {s : Triang.Sorts} {lv : Level} (hnd : (lv.radiomap.referencePoints.map (·.id)).Nodup) {cs : CommonSettings}
    {ws : List (Int × List RadioMeasurement)} (ho : ∀ w ∈ ws, OnePower w.2) {fs gs : List Fix} (hf : FixesOf s lv cs ws fs)
    (hg : FixesOf s lv cs ws gs) : fs = gs := by
  obtain ⟨os, h1, rfl⟩ := hf
  obtain ⟨os', h1', rfl⟩ := hg
  suffices os = os' by rw [this]
  induction h1 generalizing os' with
  | nil => cases h1'; rfl
  | cons h _ ih =>
    cases h1' with
    | cons h' hr =>
      rw [windowFix_unique hnd (ho _ (by simp)) h h', ih (fun w hw => ho w (by simp [hw])) _ hr]

theorem fixesOf_append {s : Triang.Sorts} {lv : Level} {cs : CommonSettings} {ws new : List (Int × List RadioMeasurement)} {fs : List Fix}
    (h : FixesOf s lv cs (ws ++ new) fs) : ∃ as bs, FixesOf s lv cs ws as ∧ FixesOf s lv cs new bs ∧ fs = as ++ bs := by
  obtain ⟨os, h1, rfl⟩ := h
  refine ⟨_, _, ⟨os.take ws.length, ?_, rfl⟩, ⟨os.drop ws.length, ?_, rfl⟩, ?_⟩
  · have := List.forall₂_take ws.length h1
    rwa [List.take_left] at this
  · have := List.forall₂_drop ws.length h1
    rwa [List.drop_left] at this
  · rw [← List.filterMap_append, List.take_append_drop]

theorem fixesOf_times {s : Triang.Sorts} {lv : Level} {cs : CommonSettings} {ws : List (Int × List RadioMeasurement)} {fs : List Fix}
    (h : FixesOf s lv cs ws fs) : (fs.map Fix.time).Sublist (ws.map (·.1)) := by
  obtain ⟨os, h1, rfl⟩ := h
  induction h1 with
  | nil => simp
  | @cons w o ws os h _ ih =>
    cases o with
    | none => simpa using ih.cons w.1
    | some f =>
      have : f.time = w.1 := h.2.1
      simpa [this] using ih

theorem lastWindow_of_last {ls : List Level} {cs : CommonSettings} {P : List RadioMeasurement → Prop} {ms : List Measurement}
    {w : Int × List RadioMeasurement} (h : (closedWindows ls cs ms).getLast? = some w) (hP : P w.2) : LastWindow ls cs P ms w.1 w.2 := by
  induction ms using List.reverseRecOn with
  | nil => cases h
  | append_singleton ms m ih =>
    rw [closedWindows_snoc] at h
    by_cases hcl : Closes ls cs ms m ∧ ∃ v, (windows ls cs (ms ++ [m])).closed = some v
    · obtain ⟨hcl, v, hv⟩ := hcl
      rw [if_pos hcl, hv] at h
      simp only [Option.toList_some, List.getLast?_append, List.getLast?_singleton, Option.some_or, Option.some.injEq] at h
      subst h
      refine ⟨ms, m, [], rfl, ⟨hcl, hv⟩, hP, ?_⟩
      intro a e b hab; simp at hab
    · have h' : (closedWindows ls cs ms).getLast? = some w := by
        by_cases hc' : Closes ls cs ms m
        · rw [if_pos hc'] at h
          cases hv : (windows ls cs (ms ++ [m])).closed with
          | none => rw [hv] at h; simpa using h
          | some v => exact absurd ⟨hc', v, hv⟩ hcl
        · rw [if_neg hc'] at h; simpa using h
      obtain ⟨b, e, a, h1, h2, h3, h4⟩ := ih h'
      refine ⟨b, e, a ++ [m], by rw [h1]; simp, h2, h3, ?_⟩
      intro a' e' b' hab t' w' hcw
      cases b' using List.reverseRecOn with
      | nil =>
        obtain ⟨rfl, hh⟩ := List.append_inj' hab rfl
        cases hh
        rw [← h1] at hcw
        exact absurd ⟨hcw.1, _, hcw.2⟩ hcl
      | append_singleton b' e'' _ =>
        have hab' : a ++ [m] = (a' ++ e' :: b') ++ [e''] := by rw [hab]; simp
        obtain ⟨h5, -⟩ := List.append_inj' hab' rfl
        exact h4 a' e' b' h5 t' w' hcw

/-- The place of every window of the list is `p`, in the bounding box of the floor. -/
def AllAt (s : Triang.Sorts) (lv : Level) (cs : CommonSettings) (p : XYPoint) (ws : List (Int × List RadioMeasurement)) : Prop :=
  Estim.Box.Covers lv.geometry.boundingBox p ∧ ∀ w ∈ ws, Locates s lv cs w.2 ∧ ∀ q, PlaceIn s lv cs w.2 q → q = p

theorem fixesOf_same {s : Triang.Sorts} {lv : Level} {cs : CommonSettings} {p : XYPoint} {ws : List (Int × List RadioMeasurement)}
    (h : AllAt s lv cs p ws) {fs : List Fix} (hf : FixesOf s lv cs ws fs) : fs = ws.map fun w => ⟨w.1, p⟩ := by
  obtain ⟨os, h1, rfl⟩ := hf
  obtain ⟨hb, h⟩ := h
  induction h1 with
  | nil => rfl
  | @cons w o ws os ho _ ih =>
    obtain ⟨l1, l2⟩ := h w (by simp)
    have ih := ih (fun w hw => h w (by simp [hw]))
    cases o with
    | none =>
      obtain ⟨q, q1, q2⟩ := ho l1
      rw [l2 q q1] at q2
      exact absurd hb q2
    | some f =>
      obtain ⟨-, f2, f3, -⟩ := ho
      rw [List.map_cons, ← ih]
      cases f
      simp only at f2 f3
      simp [f2, l2 _ f3]

/-- **C132.** A client with one floor that locates by fingerprints and smooths with the alpha-beta filter comes to rest: there is a rate
below one (it depends on the settings only) such that, whatever the client was given before (with determined fixes), if from then on
every closed window has the place `p`, in the bounding box, and the intervals between the fixes grow and shrink mildly (starting from
the last fix before), an answer after `n` such windows (while signals are heard) is OK and its place differs from `p` by at most a
constant times the `n`-th power of the rate, plus one centimetre, in each coordinate. -/
theorem C132_settles {lv : Level} {c : Cfg} (hc : Client [lv] c) (hp : SmoothFingerprints c.cs)
    (hE : ∀ l, (c.env.triSorts.edges l).Perm l) (hT : ∀ l, (c.env.triSorts.triangles l).Perm l) {lo hi : ℝ} (hlo1 : lo ≤ 1) (hhi1 : 1 ≤ hi)
    (hlo : Mild (weight c.cs) lo) (hhi : Mild (weight c.cs) hi) :
    ∃ γ, 0 ≤ γ ∧ γ < 1 ∧ ∀ (g : Garbage) (past : List (List Measurement)) (fs : List Fix) (p : XYPoint),
      FixesOf c.env.triSorts lv c.cs (closedWindows [lv] c.cs (taken past)) fs →
      (∀ fs', FixesOf c.env.triSorts lv c.cs (closedWindows [lv] c.cs (taken past)) fs' → fs' = fs) → ∃ C, 0 ≤ C ∧
      ∀ (future : List (List Measurement)) (m : Measurement) (s : State) (outs : List (Output × DebugState))
        (new : List (Int × List RadioMeasurement)),
      navigateAll c (init c g) (past ++ future) = .ok (s, outs) →
      (∀ e ∈ taken (past ++ future) ++ [m], 0 < e.ts) → Fresh [lv] c.cs (taken (past ++ future)) m →
      closedWindows [lv] c.cs (taken (past ++ future) ++ [m]) = closedWindows [lv] c.cs (taken past) ++ new →
      AllAt c.env.triSorts lv c.cs p new →
      Steady lo hi ((fs.getLast?.map Fix.time).toList ++ new.map (·.1)) →
      (∀ w, new.getLast? = some w → m.ts - w.1 < ⌊1000 * c.cs.deadReckoningTime⌋) → new ≠ [] →
      ∃ s' out dbg q, navigate c s [m] = .ok (s', [(out, dbg)]) ∧ out.status = .OK ∧ out.posLevel = lv.id ∧
        (⟨out.posLatitude, out.posLongitude⟩ : Geo.GeoPoint) = Geo.localToGps q lv.bindingPoint ∧
        |q.x - p.x| ≤ C * γ ^ new.length + 1 / 100 ∧ |q.y - p.y| ≤ C * γ ^ new.length + 1 / 100 := by
  obtain ⟨γ, g0, g1, hset⟩ := track_settles hp.accuracy hlo1 hhi1 hlo hhi
  refine ⟨γ, g0, g1, fun g past fs p hfs huniq => ?_⟩
  obtain ⟨C, hC0, hC⟩ := hset (c.env.allowed lv) fs p
  refine ⟨C, hC0, ?_⟩
  intro future m s outs new h hts hf hnew hat hst hage hne
  obtain ⟨w, hw⟩ : ∃ w, new.getLast? = some w := ⟨_, List.getLast?_eq_getLast_of_ne_nil hne⟩
  obtain ⟨hw1, hw2⟩ := hat.2 w (List.mem_of_getLast? hw)
  have hlw := lastWindow_of_last (P := Locates c.env.triSorts lv c.cs) (ms := taken (past ++ future) ++ [m]) (w := w)
    (by rw [hnew, List.getLast?_append, hw]; rfl) hw1
  obtain ⟨s', out, dbg, q, h1, hq, -, hin, -⟩ := C132_answer hc hp hE hT g _ h m hts hf hlw
  have hqp := hw2 q hq
  subst hqp
  obtain ⟨e1, e2, -, ⟨fs', k, f1, -, hk, e3⟩, -⟩ := hin ⟨hat.1, hage w hw⟩
  have hinc : (fs'.map Fix.time).Pairwise (· < ·) :=
    (closed_sorted (span_pos hp.toWindowed) _).1.sublist (fixesOf_times f1)
  rw [hnew] at f1
  obtain ⟨as, bs, a1, b1, rfl⟩ := fixesOf_append f1
  have e := huniq as a1
  subst e
  rw [fixesOf_same hat b1] at hinc hk
  obtain ⟨k', hk', c1, c2⟩ := hC (new.map fun w => ⟨w.1, q⟩) (by simpa using hne) (by
    intro f hf
    obtain ⟨w, -, rfl⟩ := List.mem_map.mp hf
    rfl) hinc (by
    have : (as.getLast?.toList ++ new.map fun w => (⟨w.1, q⟩ : Fix)).map Fix.time =
        (as.getLast?.map Fix.time).toList ++ new.map (·.1) := by
      rw [List.map_append, List.map_map]
      congr 1
      cases as.getLast? <;> rfl
    rw [this]
    exact hst)
  rw [hk] at hk'
  cases hk'
  rw [List.length_map] at c1 c2
  obtain ⟨n1, n2⟩ := shown_near (q := k.place) hat.1
  exact ⟨s', out, dbg, _, h1, e1, e2, e3, by linarith, by linarith⟩

end Verif.Trail
