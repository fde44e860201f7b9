import Verif.Stand.Lemmas

/-!
# Property theorems for C135: what a client shows while its user stands still
-/

namespace Verif.Stand

open Verif.Levels Verif.Nav
open Verif.Post (toLongLong postRun PostOp SameBox NamedLevels lastMotion lastShown Rejects)
open Verif.Geo (XYPoint)
open Verif.Knn (Result)

theorem logOf_snoc {ms : List Measurement} {outs : List (Output × DebugState)} (h : outs.length = ms.length) (m : Measurement)
    (r : Output × DebugState) : logOf (ms ++ [m]) (outs ++ [r]) = logOf ms outs ++ [(m.ts, r)] := by
  unfold logOf
  rw [List.map_append, List.zip_append (by simp [h])]
  rfl

/-- A message of the log is a message of the history. -/
theorem log_split {ms : List Measurement} : ∀ {outs : List (Output × DebugState)} {pre : List Entry} {e : Entry} {post : List Entry},
    logOf ms outs = pre ++ e :: post → outs.length = ms.length →
    ∃ a m b o1 r o2, ms = a ++ m :: b ∧ outs = o1 ++ r :: o2 ∧ o1.length = a.length ∧ logOf a o1 = pre ∧ e = (m.ts, r) ∧
      logOf b o2 = post := by
  induction ms with
  | nil => intro outs pre e post h; simp [logOf] at h
  | cons x ms ih =>
    intro outs pre e post h hl
    cases outs with
    | nil => simp at hl
    | cons y outs =>
      have hl' : outs.length = ms.length := by simpa using hl
      have h' : (x.ts, y) :: logOf ms outs = pre ++ e :: post := h
      cases pre with
      | nil =>
        simp only [List.nil_append, List.cons.injEq] at h'
        exact ⟨[], x, ms, [], y, outs, rfl, rfl, rfl, rfl, h'.1.symm, h'.2⟩
      | cons z pre =>
        simp only [List.cons_append, List.cons.injEq] at h'
        obtain ⟨a, m, b, o1, r, o2, h1, h2, h3, h4, h5, h6⟩ := ih h'.2 hl'
        refine ⟨x :: a, m, b, y :: o1, r, o2, by rw [h1]; rfl, by rw [h2]; rfl, by simp [h3], ?_, h5, h6⟩
        rw [← h4, ← h'.1]
        rfl

theorem log_mem {ms : List Measurement} {outs : List (Output × DebugState)} {e : Entry} (h : e ∈ logOf ms outs) : e.2 ∈ outs :=
  (List.of_mem_zip h).2

theorem told_next {lv : Level} {c : Cfg} (hc : Client [lv] c) (hp : Stops c.cs) {g : Garbage} {ms : List Measurement}
    {outs : List (Output × DebugState)} (hS : Session lv c g ms outs) {a b : List Measurement} {m : Measurement} (hms : ms = a ++ m :: b)
    {o1 o2 : List (Output × DebugState)} (ho : outs = o1 ++ o2) (hl : o1.length = a.length) {s s' : State} {r : Output × DebugState}
    (ht : Traced [lv] c g a s) {ops : List PostOp} (hT : Told lv c (logOf a o1) ops s) (hs : step c s m = .ok (s', r)) :
    (r.1.status = .NO_LEVEL ∧ Told lv c (logOf a o1 ++ [(m.ts, r)]) ops s') ∨
    (r.1.status ≠ .NO_LEVEL ∧ ∃ i o st f mo, f = s'.post.indoorPos ∧ r.2.indoorPosition = f.toXY ∧
      (¬ Shows (m.ts, r) → Blank r.1) ∧
      (∃ outs q, postRun c.cs c.env.allowed (ops ++ [.fuse m.ts i o st, .process f m.ts mo lv]) = some (s'.post, q :: outs) ∧
        (Shows (m.ts, r) ↔ q.isEmpty = false) ∧ (Shows (m.ts, r) → At lv (m.ts, r) q.toXY)) ∧
      Told lv c (logOf a o1 ++ [(m.ts, r)]) (ops ++ [.fuse m.ts i o st, .process f m.ts mo lv]) s') := by
  refine told_step hc hp ht hT (hS.times m (by rw [hms]; simp)) (no_location ⟨hS.noFixes.1, fun e he => hS.noFixes.2 e ?_⟩) ?_ hs
  · rw [hms]
    rcases List.mem_append.mp he with he | he
    · simp [he]
    · rw [List.mem_singleton] at he; simp [he]
  · rintro ⟨e, he, hne⟩
    refine hS.touch a m b hms ⟨e.2, ?_, hne⟩
    rw [ho, List.take_left' hl]
    exact log_mem he

/-- The calls of the post-processor during a part of the history. -/
theorem told_chain {lv : Level} {c : Cfg} (hc : Client [lv] c) (hp : Stops c.cs) {g : Garbage} {ms : List Measurement}
    {outs : List (Output × DebugState)} (hS : Session lv c g ms outs) (mid : List Measurement) :
    ∀ {a b : List Measurement} {o1 o2 o3 : List (Output × DebugState)} {s s' : State} {ops : List PostOp},
      ms = a ++ mid ++ b → outs = o1 ++ o2 ++ o3 → o1.length = a.length → runs c (init c g) a = .ok (s, o1) →
      runs c s mid = .ok (s', o2) → Told lv c (logOf a o1) ops s →
      ∃ more, Told lv c (logOf (a ++ mid) (o1 ++ o2)) (ops ++ more) s' := by
  induction mid with
  | nil =>
    intro a b o1 o2 o3 s s' ops _ _ _ _ h2 hT
    cases h2
    exact ⟨[], by simpa using hT⟩
  | cons m mid ih =>
    intro a b o1 o2 o3 s s' ops hms ho hl h1 h2 hT
    obtain ⟨⟨s1, r⟩, h3, h4⟩ := andThen_ok h2
    obtain ⟨⟨s2, o2'⟩, h5, h6⟩ := andThen_ok h4
    simp only [Result.ok.injEq, Prod.mk.injEq] at h6
    obtain ⟨rfl, rfl⟩ := h6
    have hra : runs c (init c g) (a ++ [m]) = .ok (s1, o1 ++ [r]) := by
      rw [runs_append, h1]
      simp only [andThen, runs, h3]
    have hl' : (o1 ++ [r]).length = (a ++ [m]).length := by simp [hl]
    have hms' : ms = (a ++ [m]) ++ mid ++ b := by rw [hms]; simp
    have ho' : outs = (o1 ++ [r]) ++ o2' ++ o3 := by rw [ho]; simp
    have hn := told_next hc hp hS (a := a) (m := m) (b := mid ++ b) (by rw [hms]; simp) (o1 := o1) (o2 := r :: o2' ++ o3)
      (by rw [ho]; simp) hl (traced_runs hc g a h1) hT h3
    rw [← logOf_snoc hl] at hn
    have e1 : a ++ m :: mid = (a ++ [m]) ++ mid := by simp
    have e2 : o1 ++ r :: o2' = (o1 ++ [r]) ++ o2' := by simp
    rw [e1, e2]
    rcases hn with ⟨-, hT'⟩ | ⟨-, i, o, st, f, mo, -, -, -, -, hT'⟩
    · exact ih hms' ho' hl' hra h5 hT'
    · obtain ⟨more, hm⟩ := ih hms' ho' hl' hra h5 hT'
      exact ⟨[PostOp.fuse m.ts i o st, PostOp.process f m.ts mo lv] ++ more, by rw [← List.append_assoc]; exact hm⟩

/-- The client before and after one message of the log, and the calls behind. -/
theorem at_entry {lv : Level} {c : Cfg} (hc : Client [lv] c) (hp : Stops c.cs) {g : Garbage} {ms : List Measurement} {s : State}
    {outs : List (Output × DebugState)} (h : runs c (init c g) ms = .ok (s, outs)) (hS : Session lv c g ms outs)
    {pre post : List Entry} {e : Entry} (hlog : logOf ms outs = pre ++ e :: post) :
    ∃ a m b o1 r o2 s1 s2, ms = a ++ m :: b ∧ outs = o1 ++ r :: o2 ∧ o1.length = a.length ∧ logOf a o1 = pre ∧ e = (m.ts, r) ∧
      logOf b o2 = post ∧ runs c (init c g) a = .ok (s1, o1) ∧ step c s1 m = .ok (s2, r) ∧ runs c s2 b = .ok (s, o2) := by
  have hlen := runs_length _ _ _ _ _ h
  obtain ⟨a, m, b, o1, r, o2, rfl, rfl, h3, h4, h5, h6⟩ := log_split hlog hlen
  rw [runs_append] at h
  obtain ⟨⟨s1, u1⟩, k1, k2⟩ := andThen_ok h
  obtain ⟨⟨s3, u3⟩, k3, k4⟩ := andThen_ok k2
  obtain ⟨⟨s2, u2⟩, k5, k6⟩ := andThen_ok k3
  obtain ⟨⟨s4, u4⟩, k7, k8⟩ := andThen_ok k6
  simp only [Result.ok.injEq, Prod.mk.injEq] at k8 k4
  obtain ⟨rfl, rfl⟩ := k8
  obtain ⟨rfl, k4⟩ := k4
  have hu := runs_length _ _ _ _ _ k1
  obtain ⟨e1, e2⟩ := List.append_inj k4 (by rw [hu, h3])
  simp only [List.cons.injEq] at e2
  obtain ⟨e2, e3⟩ := e2
  subst e1 e2 e3
  exact ⟨a, m, b, u1, u2, u4, s1, s2, rfl, rfl, h3, h4, h5, h6, k1, k5, k7⟩

theorem session_prefix {lv : Level} {c : Cfg} {g : Garbage} {ms : List Measurement} {outs : List (Output × DebugState)}
    (hS : Session lv c g ms outs) {a b : List Measurement} {o1 o2 : List (Output × DebugState)} (hms : ms = a ++ b)
    (ho : outs = o1 ++ o2) (hl : o1.length = a.length) : Session lv c g a o1 where
  times := fun m hm => hS.times m (by rw [hms]; simp [hm])
  noFixes := ⟨hS.noFixes.1, fun m hm => hS.noFixes.2 m (by rw [hms]; simp [hm])⟩
  touch := by
    intro x m y hxy hu
    refine hS.touch x m (y ++ b) (by rw [hms, hxy]; simp) ?_
    rw [ho, List.take_append_of_le_length (by rw [hl, hxy]; simp)]
    exact hu

theorem floor_ms {x : ℝ} (h : 0 ≤ x) : toLongLong (1000 * x) = ⌊1000 * x⌋ := by
  unfold toLongLong
  rw [if_pos (by positivity)]

/-- A user who stands still for the client stands still for its post-processor. -/
theorem still_ops {lv : Level} {c : Cfg} (hp : Stops c.cs) {L : List Entry} {ops : List PostOp} {s : State} (hT : Told lv c L ops s)
    (hL : ∀ e ∈ L, 0 < e.1) {t : Int} (h : Still c.cs L t) : Post.StandsStill c.cs ops t := by
  obtain ⟨a, e, b, h1, h2, h3, h4⟩ := h
  have hm := hT.motion a e b h1 h2 h3
  refine ⟨hp.stops, ?_, ?_⟩
  · rw [hm]; exact hL e (by rw [h1]; simp)
  · rw [hm, floor_ms hp.detection]; exact h4

theorem log_times {lv : Level} {c : Cfg} {g : Garbage} {ms : List Measurement} {outs : List (Output × DebugState)}
    (hS : Session lv c g ms outs) : ∀ e ∈ logOf ms outs, 0 < e.1 := by
  intro e he
  obtain ⟨m, hm, hh⟩ := List.mem_map.mp (List.of_mem_zip he).1
  rw [← hh]
  exact hS.times m hm

/-- A message that moves the shown place is a call of the post-processor that does. -/
theorem moves_ops {lv : Level} {c : Cfg} (hc : Client [lv] c) (hp : Stops c.cs) {g : Garbage} {ms : List Measurement} {s : State}
    {outs : List (Output × DebugState)} (h : runs c (init c g) ms = .ok (s, outs)) (hS : Session lv c g ms outs)
    {pre post : List Entry} {a e : Entry} (hlog : logOf ms outs = pre ++ e :: post) {ops : List PostOp} {s1 : State} {a1 b1 : List Measurement}
    {m1 : Measurement} {o1 o2 : List (Output × DebugState)} {r1 : Output × DebugState} {s2 : State}
    (hms : ms = a1 ++ m1 :: b1) (ho : outs = o1 ++ r1 :: o2) (hl : o1.length = a1.length) (hpre : logOf a1 o1 = pre)
    (he : e = (m1.ts, r1)) (hrun : runs c (init c g) a1 = .ok (s1, o1)) (hstep : step c s1 m1 = .ok (s2, r1))
    (hT : Told lv c pre ops s1) (hsh : Shows e) (hst : Still c.cs (pre ++ [e]) e.1) (hlast : LastShown pre a) :
    ∃ i o st f mo p q, Told lv c (pre ++ [e]) (ops ++ [.fuse m1.ts i o st] ++ [.process f m1.ts mo lv]) s2 ∧
      r1.2.indoorPosition = f.toXY ∧ At lv a p.toXY ∧ At lv e q.toXY ∧ q.isEmpty = false ∧
      Post.StandsStill c.cs (ops ++ [.fuse m1.ts i o st] ++ [.process f m1.ts mo lv]) m1.ts ∧
      ∃ t w, postRun c.cs c.env.allowed (ops ++ [.fuse m1.ts i o st]) = some (t, w) ∧ lastShown w = some p ∧
        postRun c.cs c.env.allowed (ops ++ [.fuse m1.ts i o st] ++ [.process f m1.ts mo lv]) = some (s2.post, q :: w) := by
  subst hpre
  rcases told_next hc hp hS hms ho hl (traced_runs hc g a1 hrun) hT hstep with ⟨hn, -⟩ | ⟨-, i, o, st, f, mo, -, hdbg, -, ⟨w, q, k1, k2, k3⟩, hT'⟩
  · rw [he] at hsh
    unfold Shows at hsh
    dsimp only at hsh
    rw [hn] at hsh
    cases hsh
  · have e0 : ops ++ [PostOp.fuse m1.ts i o st, .process f m1.ts mo lv] = ops ++ [.fuse m1.ts i o st] ++ [.process f m1.ts mo lv] := by simp
    rw [e0] at k1 hT'
    subst he
    obtain ⟨t, w', z, l1, l2, l3⟩ := Post.postRun_snoc k1
    simp only [Post.recordOut, List.cons.injEq] at l3
    obtain ⟨rfl, rfl⟩ := l3
    obtain ⟨t0, w0, z0, j1, j2, j3⟩ := Post.postRun_snoc l1
    have j3' : w = w0 := j3
    subst j3'
    obtain ⟨w1, v1, v2, v3⟩ := hT.run
    rw [v1, Option.some.injEq, Prod.mk.injEq] at j1
    obtain ⟨-, rfl⟩ := j1
    have hp1 : ∃ p, lastShown w1 = some p ∧ At lv a p.toXY := by
      cases hw : lastShown w1 with
      | none =>
        obtain ⟨x, y, rfl2, hs2, -⟩ := hlast
        exact absurd hs2 (v3 hw a (by rw [rfl2]; simp))
      | some p =>
        obtain ⟨a', ha', hb'⟩ := v2 p hw
        exact ⟨p, rfl, by rw [lastShown_unique hlast ha']; exact hb'⟩
    obtain ⟨p, hp1, hp2⟩ := hp1
    refine ⟨i, o, st, f, mo, p, q, hT', hdbg, hp2, k3 hsh, k2.mp hsh, ?_, t, w1, l1, hp1, k1⟩
    refine still_ops hp hT' ?_ hst
    intro x hx
    rcases List.mem_append.mp hx with hx | hx
    · exact log_times hS x (by rw [hlog]; simp [hx])
    · rw [List.mem_singleton] at hx; rw [hx]; exact hS.times m1 (by rw [hms]; simp)

theorem told_prefix {lv : Level} {c : Cfg} (hc : Client [lv] c) (hp : Stops c.cs) {g : Garbage} {ms : List Measurement}
    {outs : List (Output × DebugState)} (hS : Session lv c g ms outs) {a b : List Measurement} {o1 o2 : List (Output × DebugState)}
    {s : State} (hms : ms = a ++ b) (ho : outs = o1 ++ o2) (h : runs c (init c g) a = .ok (s, o1)) : ∃ ops, Told lv c (logOf a o1) ops s := by
  obtain ⟨more, hm⟩ := told_chain hc hp hS a (a := []) (b := b) (o1 := []) (o2 := o1) (o3 := o2) (ops := []) (s := init c g)
    (by simpa using hms) (by simpa using ho) rfl rfl h (told_init lv c g)
  exact ⟨_, by simpa using hm⟩

theorem not_same {lv : Level} {a e : Entry} {p q : Position} (ha : At lv a p.toXY) (he : At lv e q.toXY) (h : ¬ SameSpot a e) :
    q.x ≠ p.x ∨ q.y ≠ p.y := by
  by_contra hn
  push Not at hn
  have : q.toXY = p.toXY := by unfold Position.toXY; rw [hn.1, hn.2]
  unfold At at ha he
  rw [this, ← ha] at he
  simp only [Geo.GeoPoint.mk.injEq] at he
  exact h ⟨he.1.symm, he.2.symm⟩

theorem fit_bounds (lo hi x : ℝ) : min lo hi - 1 / 100 < Post.fitCoordinate lo hi x ∧ Post.fitCoordinate lo hi x ≤ hi := by
  unfold Post.fitCoordinate
  have h1 := Int.floor_le (min (max x lo) hi * 100)
  have h2 := Int.lt_floor_add_one (min (max x lo) hi * 100)
  have h3 : min lo hi ≤ min (max x lo) hi := min_le_min_right _ (le_max_right _ _)
  have h4 : min (max x lo) hi ≤ hi := min_le_right _ _
  constructor <;> linarith

/-- Every place that the post-processor shows lies on the floor. -/
theorem shown_on_floor {cs : CommonSettings} {allowed : Level → ℝ → ℝ → Prop} {lv : Level} {ops : List PostOp}
    (hb : SameBox lv.geometry.boundingBox ops) {s : Post.PostState} {outs : List Position}
    (h : postRun cs allowed ops = some (s, outs)) : ∀ q ∈ outs, q.isEmpty = false → OnFloor lv q.toXY := by
  induction ops using List.reverseRecOn generalizing s outs with
  | nil => rw [Post.postRun_nil] at h; cases h; simp
  | append_singleton ops op ih =>
    obtain ⟨s0, outs0, o, h0, hs, rfl⟩ := Post.postRun_snoc h
    have hih := ih (fun f t m l hm => hb f t m l (by simp [hm])) h0
    cases op with
    | fuse t i o st => exact hih
    | process f t m l =>
      intro q hq hne
      simp only [Post.recordOut, List.mem_cons] at hq
      rcases hq with rfl | hq
      · simp only [Post.postStep] at hs
        by_cases hrej : Rejects cs f t l
        · rw [Post.process_rejects hrej] at hs
          cases hs
          cases hne
        · obtain ⟨c, p, -, -, heq⟩ := Post.process_accepts hrej hs
          have hbox := hb f t m l (by simp)
          simp only [Prod.mk.injEq, hbox] at heq
          rw [heq.1]
          exact ⟨(fit_bounds _ _ _).1, (fit_bounds _ _ _).2, (fit_bounds _ _ _).1, (fit_bounds _ _ _).2⟩
      · exact hih q hq hne

theorem lastShown_mem {w : List Position} {p : Position} (h : lastShown w = some p) : p ∈ w ∧ p.isEmpty = false := by
  unfold lastShown at h
  exact ⟨List.mem_of_find?_eq_some h, by simpa using List.find?_some h⟩

/-- **C135, distance.** A client with one floor that detects stops, without graph projection and barometer, in a session without
satellite fixes whose signals keep coming: a message at which another place is shown although the user stands still moves the
shown place by less than the distance threshold (up to the rounding to whole centimetres). -/
theorem C135_near {lv : Level} {c : Cfg} (hc : Client [lv] c) (hp : Stops c.cs) (g : Garbage) (batches : List (List Measurement))
    {s : State} {outs : List (Output × DebugState)} (h : navigateAll c (init c g) batches = .ok (s, outs))
    (hS : Session lv c g (taken batches) outs) {pre post : List Entry} {a e : Entry}
    (hlog : logOf (taken batches) outs = pre ++ e :: post) (hm : Moves c.cs pre a e) :
    ∃ p q : XYPoint, OnFloor lv p ∧ At lv a p ∧ OnFloor lv q ∧ At lv e q ∧
      Geometry.dist p q < c.cs.useStopsDistanceThresholdM + 15 / 1000 := by
  rw [navigateAll_eq] at h
  obtain ⟨a1, m1, b1, o1, r1, o2, s1, s2, k1, k2, k3, k4, k5, -, k6, k7, -⟩ := at_entry hc hp h hS hlog
  obtain ⟨ops, hT⟩ := told_prefix hc hp hS k1 k2 k6
  rw [k4] at hT
  obtain ⟨i, o, st, f, mo, p, q, hT', -, hpa, hqe, hne, hstill, t, w, u1, u2, u3⟩ :=
    moves_ops hc hp h hS hlog k1 k2 k3 k4 k5 k6 k7 hT hm.shows_ hm.still hm.last
  have hfl := shown_on_floor hT'.box u3
  have hpm := lastShown_mem u2
  exact ⟨p.toXY, q.toXY, hfl p (by simp [hpm.1]) hpm.2, hpa, hfl q (by simp) hne, hqe, Post.C39_near hp.graph hT'.box hT'.named
    ⟨hstill, hne, not_same hpa hqe hm.moved, t, w, _, u1, u2, u3⟩⟩

/-- **C135, spacing.** Of any two such messages the later one has a time more than the update time of stops after the earlier
one. -/
theorem C135_spacing {lv : Level} {c : Cfg} (hc : Client [lv] c) (hp : Stops c.cs) (g : Garbage) (batches : List (List Measurement))
    {s : State} {outs : List (Output × DebugState)} (h : navigateAll c (init c g) batches = .ok (s, outs))
    (hS : Session lv c g (taken batches) outs) {pre mid post : List Entry} {a1 e1 a2 e2 : Entry}
    (hlog : logOf (taken batches) outs = pre ++ e1 :: mid ++ e2 :: post) (h1 : Moves c.cs pre a1 e1)
    (h2 : Moves c.cs (pre ++ e1 :: mid) a2 e2) : ⌊1000 * c.cs.stopUpdateTime⌋ < e2.1 - e1.1 := by
  rw [navigateAll_eq] at h
  obtain ⟨a2', m2, b2, p1, r2, p2, t1, t2, j1, j2, j3, j4, j5, -, j6, j7, -⟩ := at_entry hc hp h hS hlog
  have hS' := session_prefix hS j1 j2 j3
  obtain ⟨a1', m1, mid', o1, r1, o2, s1, s2, k1, k2, k3, k4, k5, -, k6, k7, k8⟩ := at_entry hc hp j6 hS' j4
  obtain ⟨ops, hT⟩ := told_prefix hc hp hS' k1 k2 k6
  rw [k4] at hT
  obtain ⟨i, o, st, f, mo, p, q, hT', -, hpa, hqe, hne, hstill, t, w, u1, u2, u3⟩ :=
    moves_ops hc hp j6 hS' j4 k1 k2 k3 k4 k5 k6 k7 hT h1.shows_ h1.still h1.last
  have hT1 := hT'
  have hrun : runs c (init c g) (a1' ++ [m1]) = .ok (s2, o1 ++ [r1]) := by
    rw [runs_append, k6]
    simp only [andThen, runs, k7]
  rw [← k4, k5, ← logOf_snoc k3] at hT'
  obtain ⟨more, hM⟩ := told_chain hc hp hS' mid' (a := a1' ++ [m1]) (b := []) (o1 := o1 ++ [r1]) (o2 := o2) (o3 := [])
    (by rw [k1]; simp) (by rw [k2]; simp) (by simp [k3]) hrun k8 hT'
  have e1' : a1' ++ [m1] ++ mid' = a2' := by rw [k1]; simp
  have e2' : o1 ++ [r1] ++ o2 = p1 := by rw [k2]; simp
  rw [e1', e2', j4] at hM
  obtain ⟨i2, o2', st2, f2, mo2, p2', q2, hT2, -, hpa2, hqe2, hne2, hstill2, t2', w2, v1, v2, v3⟩ :=
    moves_ops hc hp h hS hlog j1 j2 j3 j4 j5 j6 j7 hM h2.shows_ h2.still h2.last
  have e3 : e1.1 = m1.ts := by rw [k5]
  have e4 : e2.1 = m2.ts := by rw [j5]
  rw [e3, e4, ← floor_ms hp.update]
  have m1' : Post.MovesWhileStill c.cs c.env.allowed (ops ++ [.fuse m1.ts i o st]) f m1.ts mo lv p q :=
    ⟨hstill, hne, not_same hpa hqe h1.moved, t, w, _, u1, u2, u3⟩
  have m2' : Post.MovesWhileStill c.cs c.env.allowed
      (ops ++ [.fuse m1.ts i o st] ++ [.process f m1.ts mo lv] ++ (more ++ [.fuse m2.ts i2 o2' st2])) f2 m2.ts mo2 lv p2' q2 := by
    rw [← List.append_assoc]
    exact ⟨hstill2, hne2, not_same hpa2 hqe2 h2.moved, t2', w2, _, v1, v2, v3⟩
  have hb := hT2.box
  have hn := hT2.named
  have e5 : ops ++ [.fuse m1.ts i o st] ++ [.process f m1.ts mo lv] ++ more ++ [.fuse m2.ts i2 o2' st2] ++ [.process f2 m2.ts mo2 lv] =
      ops ++ [.fuse m1.ts i o st] ++ [.process f m1.ts mo lv] ++ (more ++ [.fuse m2.ts i2 o2' st2]) ++
        [PostOp.process f2 m2.ts mo2 lv] := by simp
  rw [e5] at hb hn
  exact Post.C39_spacing hp.graph hp.update hb hn m1' m2'

/-- **C135, hold.** Without smoothing: while the user stands still, an estimated place at the distance threshold or farther from
the shown one leaves the shown place as it is. -/
theorem C135_hold {lv : Level} {c : Cfg} (hc : Client [lv] c) (hp : Stops c.cs) (hs1 : c.cs.useSmoothing = false)
    (hs2 : c.cs.useTimeSmoothing = false) (g : Garbage) (batches : List (List Measurement))
    {s : State} {outs : List (Output × DebugState)} (h : navigateAll c (init c g) batches = .ok (s, outs))
    (hS : Session lv c g (taken batches) outs) {pre post : List Entry} {a e : Entry}
    (hlog : logOf (taken batches) outs = pre ++ e :: post) (hst : Still c.cs (pre ++ [e]) e.1) (hsh : Shows e)
    (hlast : LastShown pre a) :
    ∃ p : XYPoint, OnFloor lv p ∧ At lv a p ∧
      (c.cs.useStopsDistanceThresholdM ≤ Geometry.dist p e.2.2.indoorPosition → SameSpot a e) := by
  rw [navigateAll_eq] at h
  obtain ⟨a1, m1, b1, o1, r1, o2, s1, s2, k1, k2, k3, k4, k5, -, k6, k7, -⟩ := at_entry hc hp h hS hlog
  obtain ⟨ops, hT⟩ := told_prefix hc hp hS k1 k2 k6
  rw [k4] at hT
  obtain ⟨i, o, st, f, mo, p, q, hT', hdbg, hpa, hqe, hne, hstill, t, w, u1, u2, u3⟩ :=
    moves_ops hc hp h hS hlog k1 k2 k3 k4 k5 k6 k7 hT hsh hst hlast
  have hpm := lastShown_mem u2
  refine ⟨p.toXY, shown_on_floor hT'.box u3 p (by simp [hpm.1]) hpm.2, hpa, fun hfar => ?_⟩
  rw [k5] at hfar
  dsimp only at hfar
  rw [hdbg] at hfar
  by_contra hn
  have := Post.C39_hold hp.graph hs1 hs2 hT'.box hT'.named u1 u2 u3 hstill hne hfar
  rcases not_same hpa hqe hn with h | h
  · exact h this.1
  · exact h this.2

/-- The point of the floor that the corner of the box next to the local origin is shown as. -/
noncomputable def shownOrigin (lv : Level) : XYPoint :=
  ⟨Post.fitCoordinate lv.geometry.boundingBox.minCorner.x lv.geometry.boundingBox.maxCorner.x 0,
   Post.fitCoordinate lv.geometry.boundingBox.minCorner.y lv.geometry.boundingBox.maxCorner.y 0⟩

/-- As long as nothing was shown, the post-processor holds an empty position at the local origin. -/
theorem held_origin {cs : CommonSettings} {allowed : Level → ℝ → ℝ → Prop} (hg : cs.useGraphProjection = false)
    (hs1 : cs.useSmoothing = false) (hs2 : cs.useTimeSmoothing = false) {lv : Level} {ops : List PostOp}
    (hb : SameBox lv.geometry.boundingBox ops) {s : Post.PostState} {outs : List Position}
    (h : postRun cs allowed ops = some (s, outs)) (hno : lastShown outs = none) :
    s.lastOut.isEmpty = true ∧ (s.lastOut.toXY = ⟨0, 0⟩ ∨ s.lastOut.toXY = shownOrigin lv) := by
  induction ops using List.reverseRecOn generalizing s outs with
  | nil => rw [Post.postRun_nil] at h; cases h; exact ⟨rfl, .inl rfl⟩
  | append_singleton ops op ih =>
    obtain ⟨s0, outs0, o, h0, hs, rfl⟩ := Post.postRun_snoc h
    cases op with
    | fuse t i o st =>
      have := ih (fun f t m l hm => hb f t m l (by simp [hm])) h0 hno
      simp only [Post.postStep, Post.fusePositions, Option.some.injEq, Prod.mk.injEq] at hs
      rw [← hs.2]
      unfold Post.fillOutdoor Post.fillIndoor
      split_ifs <;> exact this
    | process f t m l =>
      have hno' : lastShown outs0 = none ∧ o.isEmpty = true := by
        cases ho : o.isEmpty with
        | false => simp [lastShown, Post.recordOut, ho] at hno
        | true =>
          simp only [lastShown, Post.recordOut, List.find?_cons, ho, Bool.not_true] at hno
          exact ⟨hno, rfl⟩
      obtain ⟨v1, v2⟩ := ih (fun f t m l hm => hb f t m l (by simp [hm])) h0 hno'.1
      simp only [Post.postStep] at hs
      have hm := Post.noteMotion_frame s0 m
      by_cases hrej : Rejects cs f t l
      · rw [Post.process_rejects hrej] at hs
        cases hs
        rw [hm.2.2.2.2.1]
        exact ⟨v1, v2⟩
      · obtain ⟨c, p, hc, hq, heq⟩ := Post.process_accepts hrej hs
        have hfr := Post.smoothing_frame hc
        simp only [Post.snapToGraph, hg, Bool.false_eq_true, if_false, Option.some.injEq] at hq
        subst hq
        have e0 : c.1 = f := by
          simp only [Post.smoothing, hs1, hs2, Bool.false_eq_true, if_false, Option.map_some, Option.some.injEq] at hc
          rw [← hc]
        have e1 : c.2.lastOut = s0.lastOut := hfr.2.2.2.2.1.trans hm.2.2.2.2.1
        have hbox := hb f t m l (by simp)
        simp only [Prod.mk.injEq, hbox] at heq
        have hfe : f.isEmpty = false := by
          by_contra hne
          exact hrej (.inl (by simpa using hne))
        rw [heq.2]
        rcases (Post.takeOver_lastOut (cs := cs) c.2 c.1 t).2 with ⟨-, -, h2, -⟩ | ⟨-, -, h2, -⟩ | ⟨-, h2, -⟩
        · dsimp only
          rw [h2, e1]
          refine ⟨v1, .inr ?_⟩
          unfold Position.toXY at v2 ⊢
          simp only [XYPoint.mk.injEq, shownOrigin] at v2 ⊢
          rcases v2 with ⟨x1, x2⟩ | ⟨x1, x2⟩ <;> simp only [Post.fitInBox, x1, x2, Post.fit_idem, and_self]
        · exfalso
          have := hno'.2
          rw [heq.1, h2, e0] at this
          simp [Post.fitInBox, hfe] at this
        · exfalso
          have := hno'.2
          rw [heq.1, h2, e0] at this
          simp [Post.fitInBox, hfe] at this

/-- **C135, nothing to hold.** Without smoothing: when the user comes to stand still before any place was shown, a message shows
no place if the estimated place is not near the local origin of the floor (nor near the corner the origin is shown as): the client
keeps showing the empty place it started with, although it knows where the user is. -/
theorem C135_nothing {lv : Level} {c : Cfg} (hc : Client [lv] c) (hp : Stops c.cs) (hs1 : c.cs.useSmoothing = false)
    (hs2 : c.cs.useTimeSmoothing = false) (g : Garbage) (batches : List (List Measurement))
    {s : State} {outs : List (Output × DebugState)} (h : navigateAll c (init c g) batches = .ok (s, outs))
    (hS : Session lv c g (taken batches) outs) {pre post : List Entry} {e : Entry}
    (hlog : logOf (taken batches) outs = pre ++ e :: post) (hst : Still c.cs (pre ++ [e]) e.1) (hno : ∀ x ∈ pre, ¬ Shows x)
    (h0 : c.cs.useStopsDistanceThresholdM ≤ Geometry.dist ⟨0, 0⟩ e.2.2.indoorPosition)
    (h1 : c.cs.useStopsDistanceThresholdM ≤ Geometry.dist (shownOrigin lv) e.2.2.indoorPosition) : ¬ Shows e ∧ Blank e.2.1 := by
  rw [navigateAll_eq] at h
  obtain ⟨a1, m1, b1, o1, r1, o2, s1, s2, k1, k2, k3, k4, k5, -, k6, k7, -⟩ := at_entry hc hp h hS hlog
  obtain ⟨ops, hT⟩ := told_prefix hc hp hS k1 k2 k6
  obtain ⟨w0, x1, x2, x3⟩ := hT.run
  have hw0 : lastShown w0 = none := by
    cases hw : lastShown w0 with
    | none => rfl
    | some p =>
      obtain ⟨b, ⟨u, v, hb, hb2, -⟩, -⟩ := x2 p hw
      rw [k4] at hb
      exact absurd hb2 (hno b (by rw [hb]; simp))
  rcases told_next hc hp hS k1 k2 k3 (traced_runs hc g a1 k6) hT k7 with ⟨hn, hT'⟩ | ⟨-, i, o, st, f, mo, -, hdbg, hblank, ⟨w, q, y1, y2, y3⟩, hT'⟩
  · have hns : ¬ Shows e := by
      rw [k5]; intro hh; unfold Shows at hh; dsimp only at hh; rw [hn] at hh; cases hh
    refine ⟨hns, ?_⟩
    obtain ⟨x, l, hstp, -⟩ := step_parts hc (traced_runs hc g a1 k6).inv k7
    rcases (stepped_shows hc hstp).1 with ⟨-, -, hb⟩ | ⟨-, hb, -⟩
    · rw [k5]; exact hb
    · rw [hn] at hb; cases hb
  · have key : ¬ Shows e := by
      intro hsh
      have e0 : ops ++ [PostOp.fuse m1.ts i o st, .process f m1.ts mo lv] = ops ++ [.fuse m1.ts i o st] ++ [.process f m1.ts mo lv] := by simp
      rw [e0] at y1 hT'
      obtain ⟨t, w', z, l1, l2, l3⟩ := Post.postRun_snoc y1
      simp only [Post.recordOut, List.cons.injEq] at l3
      obtain ⟨rfl, rfl⟩ := l3
      have hww : w = w0 := by
        obtain ⟨t0, w9, z0, j1, j2, j3⟩ := Post.postRun_snoc l1
        rw [x1, Option.some.injEq, Prod.mk.injEq] at j1
        rw [j1.2]
        exact j3
      obtain ⟨v1, v2⟩ := held_origin hp.graph hs1 hs2 (fun f t m l hm => hT'.box f t m l (List.mem_append_left _ hm)) l1
        (by rw [hww]; exact hw0)
      have hstill : Post.StandsStill c.cs (ops ++ [.fuse m1.ts i o st] ++ [.process f m1.ts mo lv]) m1.ts := by
        rw [k4] at hT'
        rw [k5] at hst
        refine still_ops hp hT' ?_ hst
        intro x hx
        rcases List.mem_append.mp hx with hx | hx
        · exact log_times hS x (by rw [hlog]; simp [hx])
        · rw [List.mem_singleton] at hx; rw [hx]; exact hS.times m1 (by rw [k1]; simp)
      have hq := y2.mp (k5 ▸ hsh)
      simp only [Post.postStep] at l2
      have hm := Post.noteMotion_frame t mo
      by_cases hrej : Rejects c.cs f m1.ts lv
      · rw [Post.process_rejects hrej] at l2
        simp only [Option.some.injEq, Prod.mk.injEq] at l2
        rw [← l2.1] at hq
        cases hq
      · obtain ⟨cc, p, hcc, hsn, heq⟩ := Post.process_accepts hrej l2
        have hfr := Post.smoothing_frame hcc
        simp only [Post.snapToGraph, hp.graph, Bool.false_eq_true, if_false, Option.some.injEq] at hsn
        subst hsn
        have e0 : cc.1 = f := by
          simp only [Post.smoothing, hs1, hs2, Bool.false_eq_true, if_false, Option.map_some, Option.some.injEq] at hcc
          rw [← hcc]
        have e1 : cc.2.lastOut = t.lastOut := hfr.2.2.2.2.1.trans hm.2.2.2.2.1
        have e3 : cc.2.lastStepTs = lastMotion (ops ++ [.fuse m1.ts i o st] ++ [.process f m1.ts mo lv]) := by
          rw [hfr.2.2.2.2.2.2, Post.lastMotion_append, ← Post.lastMotion_run l1]
          unfold Post.noteMotion
          split_ifs <;> rfl
        have hstop : c.cs.useStops = true ∧ Post.stopDetected c.cs cc.2 m1.ts := by
          refine ⟨hp.stops, ?_⟩
          unfold Post.stopDetected
          rw [e3]
          exact hstill.2
        simp only [Prod.mk.injEq] at heq
        rcases (Post.takeOver_lastOut (cs := c.cs) cc.2 cc.1 m1.ts).2 with ⟨-, -, h2, -⟩ | ⟨-, h3, -, -⟩ | ⟨h2, -, -⟩
        · rw [heq.1, h2, e1] at hq
          simp [Post.fitInBox, v1] at hq
        · have h5 := h3.2
          rw [e1, e0] at h5
          change Geometry.getDist t.lastOut.toXY.x t.lastOut.toXY.y f.toXY.x f.toXY.y < _ at h5
          rw [Geometry.getDist_eq_dist t.lastOut.toXY f.toXY] at h5
          rw [k5] at h0 h1
          dsimp only at h0 h1
          rw [hdbg] at h0 h1
          rcases v2 with v2 | v2 <;> rw [v2] at h5
          · exact absurd h5 (not_lt.mpr h0)
          · exact absurd h5 (not_lt.mpr h1)
        · exact absurd hstop h2
    refine ⟨key, ?_⟩
    rw [k5] at key ⊢
    exact hblank key

end Verif.Stand
