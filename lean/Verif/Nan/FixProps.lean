import Verif.Nan.FixSpec
import Verif.Nan.Props
import Verif.Estim.Props

/-!
# Property theorems for C145: satellite fixes that are not numbers
-/

namespace Verif.Nan

section
variable {α : Type} {A : Arithmetic α}

theorem nan_normalize (h : Propagates A) {lon : α} (k : A.nan lon) : A.nan (normalizeLongitude A lon) := by
  unfold normalizeLongitude
  rw [if_neg (h.lt _ _ (.inr k)), if_neg (h.le _ _ (.inl k))]
  exact k

theorem bad_local (h : Propagates A) {p : Geo α} (bind : Geo α) (k : A.nan p.latitude ∨ A.nan p.longitude) :
    BadPoint A (gpsToLocal A p bind) := by
  rcases k with k | k
  · exact .inr (h.mul _ _ (.inl (h.sub _ _ (.inl k))))
  · exact .inl (h.mul _ _ (.inl (nan_normalize h (h.sub _ _ (.inl k)))))

theorem bad_global (h : Propagates A) {q : Pt α} (bind : Geo α) (k : BadPoint A q) :
    A.nan (localToGps A q bind).latitude ∨ A.nan (localToGps A q bind).longitude := by
  rcases k with k | k
  · exact .inr (nan_normalize h (h.add _ _ (.inl (h.div _ _ (.inl (h.mul _ _ (.inl k)))))))
  · exact .inl (h.add _ _ (.inl (h.mul _ _ (.inl k))))

theorem bad_levels (h : Propagates A) {c : FixConfig α} (hc : c.outside = false) (st : FixState α) {g : Fix α}
    (hg : A.nan g.latitude ∨ A.nan g.longitude) (sats : Int) (ls : List (Floor α)) :
    fixLevels A c st g sats ls = some (noPlace A, st) := by
  induction ls with
  | nil => rfl
  | cons l ls ih =>
    unfold fixLevels
    dsimp only
    rw [if_neg]
    · exact ih
    · rintro (⟨h1, h2, -⟩ | h1)
      · rcases bad_local h (p := ⟨g.latitude, g.longitude⟩) l.binding hg with k | k
        · exact h1 k
        · exact h2 k
      · rw [hc] at h1; cases h1

theorem extract_bad {c : FixConfig α} {m : Msr α} (hm : BadFix A m) (ts : Int) :
    ∃ g, extractFix A c ts m = some g ∧ (A.nan g.latitude ∨ A.nan g.longitude) ∧ g.latitude = m.values.x ∧ g.longitude = m.values.y ∧
      g.ts = ts := by
  unfold extractFix
  rw [if_pos hm.1]
  exact ⟨_, rfl, hm.2, rfl, rfl, rfl⟩

/-- **C145.** Unless places outside the map are wanted, a fix whose latitude or longitude is not a number is ignored: no place is told
and the last place stays what it was; the buffer of the three-sigma filter stays too or is emptied, as by any fix. -/
theorem C145_ignored (h : Propagates A) (c : FixConfig α) (hc : c.outside = false) (levels : List (Floor α)) (st : FixState α) (ts : Int)
    (m : Msr α) (hm : BadFix A m) (nmea : NmeaMeasurement) (indoor : Bool) :
    ∃ st', fixPosition A c levels st ts m nmea indoor = some (noPlace A, st') ∧ st'.last = st.last ∧ (st'.buf = st.buf ∨ st'.buf = []) := by
  obtain ⟨g, e, hg, -⟩ := extract_bad (c := c) hm ts
  unfold fixPosition
  dsimp only
  rw [e]
  dsimp only
  rw [bad_levels h hc _ hg]
  refine ⟨_, rfl, ?_, ?_⟩ <;> split_ifs
  · rfl
  · rfl
  · exact .inr rfl
  · exact .inl rfl

/-- **C145, what fails.** When places outside the map are wanted and the three-sigma filter is off, such a fix is taken over: the
client is told a place on the first floor of the map that is not a number, and so is the latitude or the longitude it answers. -/
theorem C145_taken (h : Propagates A) (c : FixConfig α) (hc : c.outside = true) (hf : c.filter = false) (l : Floor α)
    (levels : List (Floor α)) (st : FixState α) (ts : Int) (m : Msr α) (hm : BadFix A m) (nmea : NmeaMeasurement)
    (hn : Announced c.minSats nmea) (indoor : Bool) :
    ∃ out st', fixPosition A c (l :: levels) st ts m nmea indoor = some (out, st') ∧ out.isEmpty = false ∧ out.level = l.id ∧
      st'.last = out ∧
      (A.nan (localToGps A ⟨out.x, out.y⟩ l.binding).latitude ∨ A.nan (localToGps A ⟨out.x, out.y⟩ l.binding).longitude) := by
  obtain ⟨g, e, hg, -⟩ := extract_bad (c := c) hm ts
  have hs : ¬ (Estim.extractNumberOfSatellites nmea ≠ 0 ∧ Estim.extractNumberOfSatellites nmea < (c.minSats : Int)) := by
    unfold Estim.extractNumberOfSatellites
    rintro ⟨h1, h2⟩
    split_ifs at h1 h2 with k
    · have := hn k.1 k.2
      omega
    · exact h1 rfl
  unfold fixPosition
  dsimp only
  rw [e]
  dsimp only
  unfold fixLevels
  dsimp only
  rw [if_pos (.inr hc), hf]
  simp only [Bool.false_eq_true, if_false, ite_self, Bool.not_true, Bool.false_or]
  rw [if_neg (by simpa using hs)]
  exact ⟨_, _, rfl, rfl, rfl, rfl, bad_global h (q := ⟨_, _⟩) _ (bad_local h (p := ⟨g.latitude, g.longitude⟩) _ hg)⟩

theorem fold_bad (h : Propagates A) (f : Pt α → α) (buf : List (Pt α)) (s : α) (k : A.nan s ∨ ∃ p ∈ buf, A.nan (f p)) :
    A.nan (buf.foldl (fun s q => A.add s (f q)) s) := by
  induction buf generalizing s with
  | nil =>
    rcases k with k | ⟨p, hp, -⟩
    · exact k
    · cases hp
  | cons q qs ih =>
    apply ih
    rcases k with k | ⟨p, hp, k⟩
    · exact .inl (h.add _ _ (.inl k))
    · rcases List.mem_cons.mp hp with rfl | hp
      · exact .inl (h.add _ _ (.inr k))
      · exact .inr ⟨p, hp, k⟩

/-- A bad point is not accepted, and neither is any point next to a bad one in the buffer. -/
theorem bad_accepts (h : Propagates A) (window : ℕ) (delta : α) (buf : List (Pt α)) (p : Pt α)
    (k : BadPoint A p ∨ ∃ q ∈ buf, BadPoint A q) : ¬ Accepts A window delta buf p := by
  unfold Accepts
  dsimp only
  rintro ⟨h1, h2⟩
  rcases k with (k | k) | ⟨q, hq, k | k⟩
  · exact h.le _ _ (.inl (h.abs _ (h.sub _ _ (.inr k)))) h1
  · exact h.le _ _ (.inl (h.abs _ (h.sub _ _ (.inr k)))) h2
  · exact h.le _ _ (.inl (h.abs _ (h.sub _ _ (.inl (h.div _ _ (.inl (fold_bad h Pt.x buf _ (.inr ⟨q, hq, k⟩)))))))) h1
  · exact h.le _ _ (.inl (h.abs _ (h.sub _ _ (.inl (h.div _ _ (.inl (fold_bad h Pt.y buf _ (.inr ⟨q, hq, k⟩)))))))) h2

/-- The next `r` points are refused. -/
def Blind (A : Arithmetic α) (window r : ℕ) (buf : List (Pt α)) : Prop :=
  buf.length ≤ window ∧
  ((∃ pre p post, buf = pre ++ p :: post ∧ BadPoint A p ∧ post.length + r ≤ window) ∨ buf.length + r ≤ window)

theorem Blind.mono {window r : ℕ} {buf : List (Pt α)} (h : Blind A window (r + 1) buf) : Blind A window r buf := by
  refine ⟨h.1, ?_⟩
  rcases h.2 with ⟨pre, p, post, e, hp, k⟩ | k
  · exact .inl ⟨pre, p, post, e, hp, by omega⟩
  · exact .inr (by omega)

theorem blind_clear {window r : ℕ} (h : r ≤ window) : Blind A window r ([] : List (Pt α)) := ⟨by simp, .inr (by simpa using h)⟩

theorem Blind.le {window r : ℕ} {buf : List (Pt α)} (h : Blind A window r buf) : r ≤ window := by
  rcases h.2 with ⟨pre, p, post, e, hp, k⟩ | k <;> omega

/-- While the filter is blind it refuses, and is blind for one point less. -/
theorem blind_add (h : Propagates A) {window r : ℕ} (delta : α) {buf : List (Pt α)} (hb : Blind A window (r + 1) buf) (p : Pt α) :
    ∃ buf', sigmaAdd A window delta buf p = some (false, buf') ∧ Blind A window r buf' := by
  unfold sigmaAdd
  split_ifs with hl
  · rcases hb.2 with ⟨pre, q, post, e, hq, k⟩ | k
    · subst e
      cases pre with
      | nil =>
        refine ⟨post ++ [p], ?_, ?_⟩
        · have := bad_accepts h window delta (q :: post) p (.inr ⟨q, by simp, hq⟩)
          simp [this]
        · refine ⟨by simp at hl ⊢; omega, .inr ?_⟩
          simp at hl ⊢
          omega
      | cons a pre =>
        refine ⟨pre ++ q :: (post ++ [p]), ?_, ?_⟩
        · have := bad_accepts h window delta (a :: (pre ++ q :: post)) p (.inr ⟨q, by simp, hq⟩)
          simp [this]
        · refine ⟨by simp at hl ⊢; omega, .inl ⟨pre, q, _, rfl, hq, ?_⟩⟩
          simp
          omega
    · omega
  · refine ⟨_, rfl, by have := hb.1; simp; omega, ?_⟩
    rcases hb.2 with ⟨pre, q, post, e, hq, k⟩ | k
    · exact .inl ⟨pre, q, post ++ [p], by rw [e]; simp, hq, by simp; omega⟩
    · exact .inr (by simp; omega)

/-- A bad point is refused and blinds the filter for a whole window. -/
theorem bad_sigma (h : Propagates A) {window : ℕ} (hw : 0 < window) (delta : α) {buf : List (Pt α)} (hb : buf.length ≤ window) {p : Pt α}
    (hp : BadPoint A p) : ∃ buf', sigmaAdd A window delta buf p = some (false, buf') ∧ Blind A window window buf' := by
  unfold sigmaAdd
  split_ifs with hl
  · cases buf with
    | nil => simp at hl; omega
    | cons a buf =>
      refine ⟨buf ++ [p], ?_, by simp at hl ⊢; omega, .inl ⟨buf, p, [], rfl, hp, by simp⟩⟩
      have := bad_accepts h window delta (a :: buf) p (.inl hp)
      simp [this]
  · exact ⟨_, rfl, by simp; omega, .inl ⟨buf, p, [], rfl, hp, by simp⟩⟩

/-- A refused fix. -/
theorem refused {c : FixConfig α} (hc : c.outside = true) (hf : c.filter = true) (l : Floor α) (ls : List (Floor α)) (st : FixState α)
    (g : Fix α) (sats : Int) (ht : g.ts ≠ st.last.ts) {buf : List (Pt α)}
    (hb : sigmaAdd A c.window c.delta st.buf (gpsToLocal A ⟨g.latitude, g.longitude⟩ l.binding) = some (false, buf)) :
    fixLevels A c st g sats (l :: ls) = some (noPlace A, { st with buf := buf }) := by
  unfold fixLevels
  dsimp only
  rw [if_pos (.inr hc), if_pos ht, if_pos hf, hb]
  simp

theorem blind_call (h : Propagates A) {c : FixConfig α} (hc : c.outside = true) (hf : c.filter = true) (l : Floor α) (ls : List (Floor α))
    (st : FixState α) (k : Call α) (ht : k.ts ≠ st.last.ts) {r : ℕ} (hb : Blind A c.window (r + fixes [k]) st.buf) :
    ∃ out st', fixPosition A c (l :: ls) st k.ts k.sensor k.nmea k.indoor = some (out, st') ∧ st'.last = st.last ∧
      (out = noPlace A ∨ out = st.last ∧ k.sensor.type ≠ .LOCATION) ∧ Blind A c.window r st'.buf := by
  classical
  unfold fixPosition
  dsimp only
  by_cases hl : k.sensor.type = .LOCATION
  · have hn : fixes [k] = 1 := by simp [fixes, hl]
    rw [hn] at hb
    obtain ⟨dev, e⟩ : ∃ dev, extractFix A c k.ts k.sensor = some ⟨k.sensor.values.x, k.sensor.values.y, dev, k.ts⟩ := by
      unfold extractFix; rw [if_pos hl]; exact ⟨_, rfl⟩
    rw [e]
    dsimp only
    split_ifs with hcl
    · have hb' : Blind A c.window (r + 1) ([] : List (Pt α)) := blind_clear hb.le
      obtain ⟨buf, h1, h2⟩ := blind_add h c.delta hb' (gpsToLocal A ⟨k.sensor.values.x, k.sensor.values.y⟩ l.binding)
      rw [refused hc hf l ls ⟨st.last, []⟩ _ _ ht h1]
      exact ⟨_, _, rfl, rfl, .inl rfl, h2⟩
    · obtain ⟨buf, h1, h2⟩ := blind_add h c.delta hb (gpsToLocal A ⟨k.sensor.values.x, k.sensor.values.y⟩ l.binding)
      rw [refused hc hf l ls st _ _ ht h1]
      exact ⟨_, _, rfl, rfl, .inl rfl, h2⟩
  · have hn : fixes [k] = 0 := by simp [fixes, hl]
    rw [hn] at hb
    have e : extractFix A c k.ts k.sensor = none := by
      unfold extractFix; rw [if_neg hl]
    rw [e]
    dsimp only
    have hb' : Blind A c.window r ([] : List (Pt α)) := blind_clear hb.le
    split_ifs
    · exact ⟨_, _, rfl, rfl, .inl rfl, hb'⟩
    · exact ⟨_, _, rfl, rfl, .inr ⟨rfl, hl⟩, hb'⟩
    · exact ⟨_, _, rfl, rfl, .inl rfl, hb⟩
    · exact ⟨_, _, rfl, rfl, .inr ⟨rfl, hl⟩, hb⟩

theorem fixes_cons (k : Call α) (ks : List (Call α)) : fixes (k :: ks) = fixes ks + fixes [k] := by
  unfold fixes
  by_cases hl : k.sensor.type = .LOCATION <;> simp [hl]

theorem blind_run (h : Propagates A) {c : FixConfig α} (hc : c.outside = true) (hf : c.filter = true) (l : Floor α) (ls : List (Floor α))
    (ks : List (Call α)) (st : FixState α) (ht : ∀ k ∈ ks, k.ts ≠ st.last.ts) (hb : Blind A c.window (fixes ks) st.buf) :
    ∃ outs st', fixRun A c (l :: ls) st ks = some (outs, st') ∧ st'.last = st.last ∧
      List.Forall₂ (fun k out => out = noPlace A ∨ out = st.last ∧ k.sensor.type ≠ .LOCATION) ks outs := by
  induction ks generalizing st with
  | nil => exact ⟨_, _, rfl, rfl, .nil⟩
  | cons k ks ih =>
    rw [fixes_cons] at hb
    obtain ⟨out, st1, e1, hl1, ho, hb1⟩ := blind_call h hc hf l ls st k (ht k (by simp)) hb
    obtain ⟨outs, st2, e2, hl2, hos⟩ := ih st1 (fun k hk => by rw [hl1]; exact ht k (by simp [hk])) hb1
    refine ⟨out :: outs, st2, ?_, hl2.trans hl1, .cons ho (by rw [hl1] at hos; exact hos)⟩
    unfold fixRun
    rw [e1]
    dsimp only
    rw [e2]
    rfl

/-- **C145, the filter.** When places outside the map are wanted and the three-sigma filter is on, a fix that is not a number is refused,
and so are as many later fixes as the window of the filter holds, however good: no new place is told. -/
theorem C145_filter (h : Propagates A) (c : FixConfig α) (hc : c.outside = true) (hf : c.filter = true) (hw : 0 < c.window) (l : Floor α)
    (levels : List (Floor α)) (st : FixState α) (hst : st.buf.length ≤ c.window) (bad : Call α) (hbad : BadFix A bad.sensor)
    (later : List (Call α)) (hn : fixes later ≤ c.window) (ht : ∀ k ∈ bad :: later, k.ts ≠ st.last.ts) :
    ∃ outs st', fixRun A c (l :: levels) st (bad :: later) = some (outs, st') ∧ st'.last = st.last ∧
      List.Forall₂ (fun k out => out = noPlace A ∨ out = st.last ∧ k.sensor.type ≠ .LOCATION) (bad :: later) outs := by
  classical
  obtain ⟨g, e, hg, -, -, hts⟩ := extract_bad (c := c) hbad bad.ts
  have hgt : g.ts ≠ st.last.ts := by rw [hts]; exact ht bad (by simp)
  have first : ∃ st1, fixPosition A c (l :: levels) st bad.ts bad.sensor bad.nmea bad.indoor = some (noPlace A, st1) ∧
      st1.last = st.last ∧ Blind A c.window c.window st1.buf := by
    unfold fixPosition
    dsimp only
    rw [e]
    dsimp only
    have hp := bad_local h (p := ⟨g.latitude, g.longitude⟩) l.binding hg
    split_ifs with hcl
    · obtain ⟨buf, h1, h2⟩ := bad_sigma h hw c.delta (buf := []) (by simp) hp
      rw [refused hc hf l levels ⟨st.last, []⟩ _ _ hgt h1]
      exact ⟨_, rfl, rfl, h2⟩
    · obtain ⟨buf, h1, h2⟩ := bad_sigma h hw c.delta hst hp
      rw [refused hc hf l levels st _ _ hgt h1]
      exact ⟨_, rfl, rfl, h2⟩
  obtain ⟨st1, e1, hl1, hb1⟩ := first
  have hb2 : Blind A c.window (fixes later) st1.buf := by
    have : ∀ n, Blind A c.window (fixes later + n) st1.buf → Blind A c.window (fixes later) st1.buf := by
      intro n
      induction n with
      | zero => exact id
      | succ n ih => exact fun k => ih k.mono
    apply this (c.window - fixes later)
    rw [show fixes later + (c.window - fixes later) = c.window by omega]
    exact hb1
  obtain ⟨outs, st2, e2, hl2, hos⟩ := blind_run h hc hf l levels later st1
    (fun k hk => by rw [hl1]; exact ht k (by simp [hk])) hb2
  refine ⟨noPlace A :: outs, st2, ?_, hl2.trans hl1, .cons (.inl rfl) (by rw [hl1] at hos; exact hos)⟩
  unfold fixRun
  rw [e1]
  dsimp only
  rw [e2]
  rfl

end

/-! ## Exact numbers -/

theorem e_normalize (x : ℝ) : normalizeLongitude exact (some x) = some (Verif.Geo.normalizeLongitude x) := by
  unfold normalizeLongitude Verif.Geo.normalizeLongitude
  by_cases h1 : x > 180
  · rw [if_pos h1, if_pos (show exact.lt (exact.lit 180) (some x) from h1)]; rfl
  · rw [if_neg h1, if_neg (show ¬ exact.lt (exact.lit 180) (some x) from h1)]
    by_cases h2 : x ≤ -180
    · rw [if_pos h2, if_pos (show exact.le (some x) (exact.lit (-180)) from h2)]; rfl
    · rw [if_neg h2, if_neg (show ¬ exact.le (some x) (exact.lit (-180)) from h2)]

theorem e_parallel (b : Verif.Geo.GeoPoint) : parallel exact (ofGeo b) = some (Verif.Geo.latitudeCircumference b) := by
  unfold parallel
  rw [show exact.mul (ofGeo b).latitude (exact.lit Real.pi) = some (b.latitude * Real.pi) from rfl,
    show exact.div (some (b.latitude * Real.pi)) (exact.lit 180) = some (b.latitude * Real.pi / 180) from e_div _ (by norm_num)]
  rfl

theorem e_local (p b : Verif.Geo.GeoPoint) : gpsToLocal exact (ofGeo p) (ofGeo b) = ofPoint (Verif.Geo.gpsToLocal p b) := by
  unfold gpsToLocal
  rw [e_parallel, show exact.sub (ofGeo p).longitude (ofGeo b).longitude = some (p.longitude - b.longitude) from rfl, e_normalize,
    show exact.div (some (Verif.Geo.latitudeCircumference b)) (exact.lit 360) = some (Verif.Geo.latitudeCircumference b / 360) from
      e_div _ (by norm_num)]
  rfl

theorem e_covers (l : Levels.Level) (p : Verif.Geo.XYPoint) :
    Covers exact (ofLevel l) (ofPoint p) ↔ Estim.Box.Covers l.geometry.boundingBox p := Iff.rfl

theorem e_sum (f : Verif.Geo.XYPoint → ℝ) (g : Pt (Option ℝ) → Option ℝ) (hg : ∀ q, g (ofPoint q) = some (f q)) (buf : List Verif.Geo.XYPoint)
    (s : ℝ) : (buf.map ofPoint).foldl (fun s q => exact.add s (g q)) (some s) = some (buf.foldl (fun s q => s + f q) s) := by
  induction buf generalizing s with
  | nil => rfl
  | cons q qs ih =>
    rw [List.map_cons, List.foldl_cons, List.foldl_cons, hg]
    exact ih _

theorem sum_nonneg (f : Verif.Geo.XYPoint → ℝ) (hf : ∀ q, 0 ≤ f q) (buf : List Verif.Geo.XYPoint) (s : ℝ) (hs : 0 ≤ s) :
    0 ≤ buf.foldl (fun s q => s + f q) s := by
  induction buf generalizing s with
  | nil => exact hs
  | cons q qs ih => exact ih _ (add_nonneg hs (hf q))

theorem e_root {x : ℝ} (h : 0 ≤ x) : exact.sqrt (some x) = some (root x) := by
  show (if x < 0 then none else some (Real.sqrt x)) = _
  rw [if_neg (not_lt.mpr h), root_eq h]

theorem e_accepts (window : ℕ) (hw : 0 < window) (delta : ℝ) (buf : List Verif.Geo.XYPoint) (p : Verif.Geo.XYPoint) :
    Accepts exact window (some delta) (buf.map ofPoint) (ofPoint p) ↔ Estim.sigmaAccepts window delta buf p = true := by
  have hw' : (window : ℝ) ≠ 0 := by positivity
  have hp : (0 : ℝ) < window := by positivity
  unfold Accepts Estim.sigmaAccepts
  dsimp only
  rw [show exact.lit 0 = some 0 from rfl, e_sum (fun q => q.x) (fun q => q.x) (fun _ => rfl), e_sum (fun q => q.y) (fun q => q.y) (fun _ => rfl),
    show exact.lit (window : ℝ) = some (window : ℝ) from rfl, e_div _ hw', e_div _ hw', divide_eq hw', divide_eq hw']
  set mx := buf.foldl (fun s q => s + q.x) 0 / (window : ℝ)
  set my := buf.foldl (fun s q => s + q.y) 0 / (window : ℝ)
  rw [e_sum (fun q => (q.x - mx) * (q.x - mx)) (fun q => exact.mul (exact.sub q.x (some mx)) (exact.sub q.x (some mx))) (fun _ => rfl),
    e_sum (fun q => (q.y - my) * (q.y - my)) (fun q => exact.mul (exact.sub q.y (some my)) (exact.sub q.y (some my))) (fun _ => rfl),
    e_div _ hw', e_div _ hw', divide_eq hw', divide_eq hw',
    e_root (div_nonneg (sum_nonneg _ (fun q => mul_self_nonneg _) buf 0 le_rfl) hp.le),
    e_root (div_nonneg (sum_nonneg _ (fun q => mul_self_nonneg _) buf 0 le_rfl) hp.le), decide_eq_true_iff]
  exact Iff.rfl

theorem e_sigma (window : ℕ) (delta : ℝ) (buf : List Verif.Geo.XYPoint) (p : Verif.Geo.XYPoint) :
    sigmaAdd exact window (some delta) (buf.map ofPoint) (ofPoint p) =
      (Estim.sigmaAdd window delta buf p).map fun r => (r.1, r.2.map ofPoint) := by
  classical
  unfold sigmaAdd Estim.sigmaAdd
  rw [List.length_map]
  split_ifs with hl
  · cases buf with
    | nil => rfl
    | cons q qs =>
      have hw : 0 < window := by rw [← hl]; simp
      have := e_accepts window hw delta (q :: qs) p
      rw [List.map_cons] at this ⊢
      dsimp only [Option.map_some]
      congr 2
      · by_cases k : Estim.sigmaAccepts window delta (q :: qs) p = true
        · rw [k]; exact decide_eq_true (this.mpr k)
        · rw [Bool.not_eq_true _ |>.mp k]; exact decide_eq_false (mt this.mp k)
      · simp
  · simp

theorem e_levels (s : CommonSettings) (st : Estim.OutdoorState) (g : Estim.GpsPosition) (sats : Int) (ls : List Levels.Level) :
    fixLevels exact (ofSettings s) (ofMembers st) ⟨some g.latitude, some g.longitude, some g.deviation, g.ts⟩ sats (ls.map ofLevel) =
      (Estim.outdoorLevels s st g sats ls).map fun r => (ofPlace r.1, ofMembers r.2) := by
  induction ls with
  | nil => rfl
  | cons l ls ih =>
    rw [List.map_cons]
    unfold fixLevels Estim.outdoorLevels
    dsimp only
    have ep : gpsToLocal exact ⟨some g.latitude, some g.longitude⟩ (ofLevel l).binding =
        ofPoint (Verif.Geo.gpsToLocal ⟨g.latitude, g.longitude⟩ l.bindingPoint) := e_local ⟨g.latitude, g.longitude⟩ l.bindingPoint
    rw [ep]
    set point := Verif.Geo.gpsToLocal ⟨g.latitude, g.longitude⟩ l.bindingPoint
    by_cases hc : Estim.Box.Covers l.geometry.boundingBox point ∨ s.useGpsOutsideMap = true
    · have hc' : (¬ exact.nan (ofPoint point).x ∧ ¬ exact.nan (ofPoint point).y ∧ Covers exact (ofLevel l) (ofPoint point)) ∨
          (ofSettings s).outside = true :=
        hc.imp (fun k => ⟨by simp [nan_iff, ofPoint], by simp [nan_iff, ofPoint], (e_covers l point).mpr k⟩) id
      rw [if_pos hc, if_pos hc']
      have check : (if g.ts ≠ (ofMembers st).last.ts then
            if (ofSettings s).filter = true then sigmaAdd exact (ofSettings s).window (ofSettings s).delta (ofMembers st).buf (ofPoint point)
            else some (true, (ofMembers st).buf)
          else some (true, (ofMembers st).buf)) =
          (if g.ts ≠ st.last.ts then
            if s.useGpsSigmaFilter = true then Estim.sigmaAdd s.sigmaFilterWindow s.sigmaFilterDelta st.buf point
            else some (true, st.buf)
          else some (true, st.buf)).map fun r => (r.1, r.2.map ofPoint) := by
        rw [show (ofMembers st).last.ts = st.last.ts from rfl, show (ofSettings s).filter = s.useGpsSigmaFilter from rfl,
          show sigmaAdd exact (ofSettings s).window (ofSettings s).delta (ofMembers st).buf (ofPoint point) = _ from e_sigma _ _ _ _]
        split_ifs <;> rfl
      rw [check]
      cases (if g.ts ≠ st.last.ts then
            if s.useGpsSigmaFilter = true then Estim.sigmaAdd s.sigmaFilterWindow s.sigmaFilterDelta st.buf point
            else some (true, st.buf)
          else some (true, st.buf)) with
      | none => rfl
      | some r =>
        obtain ⟨v, b⟩ := r
        dsimp only [Option.map_some]
        rw [show (ofSettings s).minSats = s.minNumSats from rfl]
        split_ifs <;> rfl
    · rw [if_neg hc, if_neg (fun k => hc (k.imp (fun k => (e_covers l point).mp k.2.2) id))]
      exact ih

/-- **C145, numbers.** With exact numbers and a fix that is one the estimator of this model is the estimator of the other claims. -/
theorem C145_numbers (s : CommonSettings) (c : Levels.LevelCollector) (st : Estim.OutdoorState) (ts : Int) (m : SensorMeasurement)
    (nmea : NmeaMeasurement) (indoor : Bool) :
    fixPosition exact (ofSettings s) (c.levels.map ofLevel) (ofMembers st) ts (ofM m) nmea indoor =
      (Estim.outdoorPosition s c st ts m nmea indoor).map fun r => (ofPlace r.1, ofMembers r.2) := by
  classical
  unfold fixPosition Estim.outdoorPosition
  dsimp only
  by_cases hl : m.data.type = .LOCATION
  · have e1 : Estim.extractGpsPosition s ts m = some ⟨m.data.values.x, m.data.values.y, max m.data.values.z s.minGpsDeviation, ts⟩ := by
      unfold Estim.extractGpsPosition; rw [if_pos hl]
    have e2 : extractFix exact (ofSettings s) ts (ofM m) =
        some ⟨some m.data.values.x, some m.data.values.y, some (max m.data.values.z s.minGpsDeviation), ts⟩ := by
      unfold extractFix
      rw [if_pos (show (ofM m).type = .LOCATION from hl)]
      congr 2
      by_cases k : m.data.values.z < s.minGpsDeviation
      · rw [if_pos (show exact.lt (ofM m).values.z (ofSettings s).minDeviation from k), max_eq_right k.le]; rfl
      · rw [if_neg (show ¬ exact.lt (ofM m).values.z (ofSettings s).minDeviation from k), max_eq_left (not_lt.mp k)]; rfl
    rw [e1, e2]
    dsimp only
    have hco : (ofSettings s).coarse (some (max m.data.values.z s.minGpsDeviation)) ↔
        s.maxGpsDeviation < ((max m.data.values.z s.minGpsDeviation : ℝ) : EReal) :=
      ⟨fun ⟨x, hx, k⟩ => by cases hx; exact k, fun k => ⟨_, rfl, k⟩⟩
    by_cases hcl : indoor = true ∨ s.maxGpsDeviation < ((max m.data.values.z s.minGpsDeviation : ℝ) : EReal)
    · rw [if_pos hcl, if_pos (hcl.imp id hco.mpr)]
      exact e_levels s ⟨st.last, []⟩ ⟨m.data.values.x, m.data.values.y, max m.data.values.z s.minGpsDeviation, ts⟩ _ c.levels
    · rw [if_neg hcl, if_neg (mt (Or.imp id hco.mp) hcl)]
      exact e_levels s st ⟨m.data.values.x, m.data.values.y, max m.data.values.z s.minGpsDeviation, ts⟩ _ c.levels
  · have e1 : Estim.extractGpsPosition s ts m = none := by
      unfold Estim.extractGpsPosition; rw [if_neg hl]
    have e2 : extractFix exact (ofSettings s) ts (ofM m) = none := by
      unfold extractFix
      rw [if_neg (show ¬ (ofM m).type = .LOCATION from hl)]
    rw [e1, e2]
    dsimp only
    have fin : ∀ b : List Verif.Geo.XYPoint,
        (if (ofSettings s).expired (ts - (ofMembers ⟨st.last, b⟩).last.ts) then some (noPlace exact, ofMembers ⟨st.last, b⟩)
          else some ((ofMembers ⟨st.last, b⟩).last, ofMembers ⟨st.last, b⟩)) =
        (if (((ts - st.last.ts : Int) : ℝ) / 1000) > s.gpsValidTimeWindowSec then some (Position.default, (⟨st.last, b⟩ : Estim.OutdoorState))
          else some (st.last, ⟨st.last, b⟩)).map fun r => (ofPlace r.1, ofMembers r.2) := by
      intro b
      by_cases ha : (((ts - st.last.ts : Int) : ℝ) / 1000) > s.gpsValidTimeWindowSec
      · rw [if_pos ha, if_pos (show (ofSettings s).expired (ts - (ofMembers ⟨st.last, b⟩).last.ts) from ha)]; rfl
      · rw [if_neg ha, if_neg (show ¬ (ofSettings s).expired (ts - (ofMembers ⟨st.last, b⟩).last.ts) from ha)]; rfl
    by_cases hcl : indoor = true ∨ False
    · rw [if_pos hcl, if_pos hcl]
      exact fin []
    · rw [if_neg hcl, if_neg hcl]
      exact fin st.buf

/-- **C145** is about possible arithmetics and maps: a client that wants places outside the map is told a place that is not a number. -/
example (s : CommonSettings) (hs : s.useGpsOutsideMap = true) (hf : s.useGpsSigmaFilter = false) (l : Levels.Level) (nmea : NmeaMeasurement)
    (hn : Announced s.minNumSats nmea) :
    ∃ out st', fixPosition exact (ofSettings s) [ofLevel l] (ofMembers Estim.outdoorInit) 5 ⟨.LOCATION, ⟨none, some 30, some 1⟩, 5⟩ nmea false =
      some (out, st') ∧ out.isEmpty = false := by
  obtain ⟨out, st', e, h1, -⟩ := C145_taken exact_propagates (ofSettings s) hs hf (ofLevel l) [] (ofMembers Estim.outdoorInit) 5
    ⟨.LOCATION, ⟨none, some 30, some 1⟩, 5⟩ ⟨rfl, .inl rfl⟩ nmea hn false
  exact ⟨out, st', e, h1⟩

theorem accepts_same (p : Pt (Option ℝ)) (hp : ∃ x y, p = ⟨some x, some y⟩) : Accepts exact 1 (some 0) [p] p := by
  obtain ⟨x, y, rfl⟩ := hp
  have := (e_accepts 1 (by norm_num) 0 [⟨x, y⟩] ⟨x, y⟩).mpr (by
    unfold Estim.sigmaAccepts
    simp [divide_eq, root_eq])
  exact this

/-- The window of **C145** is sharp: with a window of one, a bad fix and the good fix after it are answered with no place, and the next
good fix is accepted again. -/
example (s : CommonSettings) (hs : s.useGpsOutsideMap = true) (hf : s.useGpsSigmaFilter = true) (hw : s.sigmaFilterWindow = 1)
    (hd : s.sigmaFilterDelta = 0) (hm : s.maxGpsDeviation = ⊤) (l : Levels.Level) (nmea : NmeaMeasurement)
    (hn : nmea.data.sentenceNumber = 0) :
    ∃ out st', fixRun exact (ofSettings s) [ofLevel l] (ofMembers Estim.outdoorInit)
      [⟨5, ⟨.LOCATION, ⟨none, some 30, some 1⟩, 5⟩, nmea, false⟩, ⟨6, ⟨.LOCATION, ⟨some 60, some 30, some 1⟩, 6⟩, nmea, false⟩,
        ⟨7, ⟨.LOCATION, ⟨some 60, some 30, some 1⟩, 7⟩, nmea, false⟩] = some ([noPlace exact, noPlace exact, out], st') ∧
      out.isEmpty = false := by
  have hc : ∀ d, ¬ (ofSettings s).coarse d := by
    rintro d ⟨x, -, k⟩
    rw [hm] at k
    exact not_top_lt k
  have hsat : Estim.extractNumberOfSatellites nmea = 0 := by
    unfold Estim.extractNumberOfSatellites
    rw [if_neg (by rw [hn]; simp)]
  have ext : ∀ (t : Int) (v : Vec (Option ℝ)), ∃ dev, extractFix exact (ofSettings s) t ⟨.LOCATION, v, t⟩ = some ⟨v.x, v.y, dev, t⟩ := by
    intro t v
    unfold extractFix
    rw [if_pos rfl]
    exact ⟨_, rfl⟩
  have hnc : ∀ d, ¬ (false = true ∨ (ofSettings s).coarse d) := fun d k => k.elim (fun h => nomatch h) (hc d)
  have hw' : (ofSettings s).window = 1 := hw
  have hd' : (ofSettings s).delta = some 0 := congrArg some hd
  have no : ∀ (st : FixState (Option ℝ)) (t : Int) (v : Vec (Option ℝ)) (buf : List (Pt (Option ℝ))), t ≠ st.last.ts →
      sigmaAdd exact 1 (some 0) st.buf (gpsToLocal exact ⟨v.x, v.y⟩ (ofLevel l).binding) = some (false, buf) →
      fixPosition exact (ofSettings s) [ofLevel l] st t ⟨.LOCATION, v, t⟩ nmea false = some (noPlace exact, ⟨st.last, buf⟩) := by
    intro st t v buf ht hb
    obtain ⟨dev, e⟩ := ext t v
    unfold fixPosition
    dsimp only
    rw [e]
    dsimp only
    rw [if_neg (hnc _)]
    exact refused hs hf (ofLevel l) [] st ⟨v.x, v.y, dev, t⟩ _ ht (by rw [hw', hd']; exact hb)
  have yes : ∀ (st : FixState (Option ℝ)) (t : Int) (v : Vec (Option ℝ)) (buf : List (Pt (Option ℝ))), t ≠ st.last.ts →
      sigmaAdd exact 1 (some 0) st.buf (gpsToLocal exact ⟨v.x, v.y⟩ (ofLevel l).binding) = some (true, buf) →
      ∃ out st', fixPosition exact (ofSettings s) [ofLevel l] st t ⟨.LOCATION, v, t⟩ nmea false = some (out, st') ∧ out.isEmpty = false := by
    intro st t v buf ht hb
    obtain ⟨dev, e⟩ := ext t v
    unfold fixPosition
    dsimp only
    rw [e]
    dsimp only
    rw [if_neg (hnc _)]
    unfold fixLevels
    dsimp only
    rw [if_pos (.inr hs), if_pos ht, if_pos (show (ofSettings s).filter = true from hf), hw', hd', hb, hsat]
    exact ⟨_, _, rfl, rfl⟩
  have h0 : (ofMembers Estim.outdoorInit).last.ts = 0 := rfl
  set good := gpsToLocal exact ⟨some 60, some 30⟩ (ofLevel l).binding with hgood
  have egood : ∃ x y, good = ⟨some x, some y⟩ := ⟨_, _, e_local ⟨60, 30⟩ l.bindingPoint⟩
  set bad := gpsToLocal exact ⟨none, some 30⟩ (ofLevel l).binding with hbad
  have ebad : BadPoint exact bad := bad_local exact_propagates (p := ⟨none, some 30⟩) _ (.inl rfl)
  have s1 : sigmaAdd exact 1 (some 0) [] bad = some (false, [bad]) := rfl
  have s2 : sigmaAdd exact 1 (some 0) [bad] good = some (false, [good]) := by
    have := bad_accepts exact_propagates 1 (some 0) [bad] good (.inr ⟨bad, by simp, ebad⟩)
    simp [sigmaAdd, this]
  have s3 : sigmaAdd exact 1 (some 0) [good] good = some (true, [good]) := by
    have := accepts_same good egood
    simp [sigmaAdd, this]
  obtain ⟨out, st', e3, ho⟩ := yes ⟨(ofMembers Estim.outdoorInit).last, [good]⟩ 7 ⟨some 60, some 30, some 1⟩ [good]
    (show (7 : Int) ≠ 0 by norm_num) s3
  have e1 := no (ofMembers Estim.outdoorInit) 5 ⟨none, some 30, some 1⟩ [bad] (show (5 : Int) ≠ 0 by norm_num) s1
  have e2 := no ⟨(ofMembers Estim.outdoorInit).last, [bad]⟩ 6 ⟨some 60, some 30, some 1⟩ [good] (show (6 : Int) ≠ 0 by norm_num) s2
  refine ⟨out, st', ?_, ho⟩
  unfold fixRun
  rw [e1]
  dsimp only
  unfold fixRun
  rw [e2]
  dsimp only
  unfold fixRun
  rw [e3]
  rfl

end Verif.Nan
