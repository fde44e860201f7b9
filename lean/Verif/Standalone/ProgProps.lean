import Verif.Standalone.ProgModel
import Verif.Standalone.EstimProps
import Verif.Standalone.RadioProps

/-!
# The stand-alone positioning program: C108
-/

namespace Verif.Standalone

/-! ## Specification -/

/-- The lines before the first one that cannot be read. -/
def readable {α : Type} (file : List (Option α)) : List α := (file.takeWhile Option.isSome).filterMap id

/-- The measurement lines that count: an RSSI strictly between -100 and 0. -/
def LineCounts (l : MsrLine) : Prop := -100 < l.rssi ∧ l.rssi < 0

/-- The time stamps of the lines that count are not negative. -/
def LogOk (file : List (Option MsrLine)) : Prop := ∀ l ∈ readable file, LineCounts l → 0 ≤ l.ts

/-- A map of the plane: `x' = a x + b y + e`, `y' = c x + d y + f`. It may be a shift, a turn, a reflection, a change of
scale or a projection. -/
structure Affine where
  (a b c d e f : ℝ)

/-- The new coordinates. -/
def Affine.x (T : Affine) (x y : ℝ) : ℝ := T.a * x + T.b * y + T.e
def Affine.y (T : Affine) (x y : ℝ) : ℝ := T.c * x + T.d * y + T.f

/-- A transmitters file with all transmitters moved. -/
def Affine.file (T : Affine) (file : List (Option TxLine)) : List (Option TxLine) :=
  file.map (Option.map (fun l => { l with x := T.x l.x l.y, y := T.y l.x l.y }))

/-- An output line with its place moved. -/
def Affine.line (T : Affine) (l : OutLine) : OutLine := { l with x := T.x l.x l.y, y := T.y l.x l.y }

/-! ## Reading the files -/

theorem readable_cons_some {α : Type} (l : α) (ls : List (Option α)) : readable (some l :: ls) = l :: readable ls := by
  simp [readable]

theorem readable_cons_none {α : Type} (ls : List (Option α)) : readable (none :: ls) = [] := by
  simp [readable]

theorem getMeasurements_eq (file : List (Option MsrLine)) : getMeasurements file =
    (readable file).map (fun l => ⟨typeOf l.typeStr, l.ts, l.id, l.rssi, 0, 0, 0, 0⟩) := by
  induction file with
  | nil => rfl
  | cons o ls ih =>
    cases o with
    | none => rw [readable_cons_none]; rfl
    | some l => rw [readable_cons_some, List.map_cons, ← ih]; rfl

theorem getTransmitters_eq (file : List (Option TxLine)) : getTransmitters file =
    (readable file).map (fun l => ⟨l.id, l.x, l.y⟩) := by
  induction file with
  | nil => rfl
  | cons o ls ih =>
    cases o with
    | none => rw [readable_cons_none]; rfl
    | some l => rw [readable_cons_some, List.map_cons, ← ih]; rfl

theorem readable_append_none {α : Type} (ls rest : List (Option α)) : readable (ls ++ none :: rest) = readable ls := by
  induction ls with
  | nil => simp [readable]
  | cons o ls ih =>
    cases o with
    | none => rw [List.cons_append, readable_cons_none, readable_cons_none]
    | some l => rw [List.cons_append, readable_cons_some, readable_cons_some, ih]

theorem readable_prefix {α : Type} (ls more : List (Option α)) : ∃ r, readable (ls ++ more) = readable ls ++ r := by
  induction ls with
  | nil => exact ⟨readable more, by simp [readable]⟩
  | cons o ls ih =>
    cases o with
    | none => exact ⟨[], by rw [List.cons_append, readable_cons_none, readable_cons_none]; rfl⟩
    | some l =>
      obtain ⟨r, hr⟩ := ih
      exact ⟨r, by rw [List.cons_append, readable_cons_some, readable_cons_some, hr]; rfl⟩

/-! ## The packets -/

/-- The settings of the program. -/
noncomputable def progSettings : PreSettings := ⟨3, 2, true, true⟩

theorem prog_average : progSettings.average = 3000 := by
  have : (1000 * 3 : ℝ) = ((3000 : ℤ) : ℝ) := by norm_num
  change Verif.Radio.truncToInt (1000 * 3) = 3000
  simp only [Verif.Radio.truncToInt]
  rw [if_pos (by norm_num), this, Int.floor_intCast]

theorem prog_shift : progSettings.shift = 2000 := by
  have h2 : Verif.Radio.truncToInt (1000 * 2) = 2000 := by
    have : (1000 * 2 : ℝ) = ((2000 : ℤ) : ℝ) := by norm_num
    simp only [Verif.Radio.truncToInt]
    rw [if_pos (by norm_num), this, Int.floor_intCast]
  unfold PreSettings.shift
  rw [prog_average]
  simp only [progSettings, h2]
  norm_num

/-- The calls the program makes for a log. -/
def logOps (ms : List Msr) : List PreOp := ms.flatMap (fun m => [.update m, .extract])

theorem logOps_snoc (ms : List Msr) (m : Msr) : logOps (ms ++ [m]) = (logOps ms ++ [.update m]) ++ [.extract] := by
  simp [logOps]

theorem mem_logOps (ms : List Msr) (m : Msr) : PreOp.update m ∈ logOps ms ↔ m ∈ ms := by
  simp [logOps]

theorem preRun_snoc (s : MsrSorts) (c : PreSettings) (ops : List PreOp) (op : PreOp) :
    preRun s c (ops ++ [op]) = match op with
      | .update m => update (preRun s c ops) m
      | .extract => (extract s (preRun s c ops)).2 := by
  unfold preRun; rw [List.foldl_append]; rfl

theorem split_fold (s : MsrSorts) (ms : List Msr) :
    (ms.foldl (splitStep s) (Pre.init 3 2 true true, [])).1 = preRun s progSettings (logOps ms) := by
  induction ms using List.reverseRecOn with
  | nil => rfl
  | append_singleton ms m ih =>
    rw [List.foldl_append, logOps_snoc, preRun_snoc, preRun_snoc, ← ih]
    rfl

/-- The packet that comes after the last measurement of a log, empty if there is none. -/
noncomputable def lastPacket (s : MsrSorts) (ms : List Msr) (m : Msr) : List Msr :=
  (extract s (preRun s progSettings (logOps ms ++ [.update m]))).1

theorem splitToPackets_snoc (s : MsrSorts) (ms : List Msr) (m : Msr) : splitToPackets s (ms ++ [m]) =
    if lastPacket s ms m = [] then splitToPackets s ms else splitToPackets s ms ++ [lastPacket s ms m] := by
  unfold splitToPackets
  rw [List.foldl_append, List.foldl_cons, List.foldl_nil]
  have hst : ∀ st : Pre × List (List Msr), (splitStep s st m).2 =
      if (extract s (update st.1 m)).1.isEmpty then st.2 else st.2 ++ [(extract s (update st.1 m)).1] := fun _ => rfl
  rw [hst, split_fold]
  have e : lastPacket s ms m = (extract s (update (preRun s progSettings (logOps ms)) m)).1 := by
    unfold lastPacket; rw [preRun_snoc]
  rw [← e]
  cases lastPacket s ms m <;> simp

/-- The measurements that count. -/
def MsrOk (ms : List Msr) : Prop := ∀ m ∈ ms, -100 < m.rssi ∧ m.rssi < 0 → 0 ≤ m.ts

theorem counts_prog (m : Msr) : Counts progSettings m ↔ -100 < m.rssi ∧ m.rssi < 0 := by
  unfold Counts progSettings
  cases m.type <;> simp

theorem timesOk (ms : List Msr) (m : Msr) (h : MsrOk (ms ++ [m])) : TimesOk progSettings (logOps ms ++ [.update m]) := by
  intro x hx hc
  refine h x ?_ ((counts_prog x).mp hc)
  rcases List.mem_append.mp hx with hx | hx
  · exact List.mem_append_left _ ((mem_logOps ms x).mp hx)
  · rw [List.mem_singleton] at hx
    cases hx
    simp

theorem mem_counted (c : PreSettings) (ops : List PreOp) (m : Msr) (h : m ∈ counted c ops) :
    PreOp.update m ∈ ops ∧ Counts c m := by
  induction ops with
  | nil => simp [counted] at h
  | cons op ops ih =>
    cases op with
    | extract => exact ⟨List.mem_cons_of_mem _ (ih h).1, (ih h).2⟩
    | update x =>
      simp only [counted] at h
      split_ifs at h with hx
      · rcases List.mem_cons.mp h with rfl | h
        · exact ⟨List.mem_cons_self, hx⟩
        · exact ⟨List.mem_cons_of_mem _ (ih h).1, (ih h).2⟩
      · exact ⟨List.mem_cons_of_mem _ (ih h).1, (ih h).2⟩

/-- The entries of a packet. -/
theorem packet_entries (s : MsrSorts) (hs : s.Lawful) (ms : List Msr) (m : Msr) (h : MsrOk (ms ++ [m])) :
    ∀ e ∈ lastPacket s ms m, (-100 < e.rssi ∧ e.rssi < 0) ∧
      ∃ k ∈ ms ++ [m], (-100 < k.rssi ∧ k.rssi < 0) ∧ k.id = e.id ∧ k.ts = e.ts := by
  intro e he
  have hts := timesOk ms m h
  obtain ⟨-, -, c3, -⟩ := C70_entries s hs progSettings _ hts
  obtain ⟨c1, c2, -⟩ := c3 e he
  refine ⟨⟨c1, c2⟩, ?_⟩
  obtain ⟨h1, h2⟩ := C70_report s hs progSettings _ hts
  by_cases hd : Due progSettings (refRun progSettings (logOps ms ++ [.update m]))
  · obtain ⟨dropped, ha, -⟩ := h1 hd
    obtain ⟨-, -, k, hk, hke, hkk⟩ := ha.entry e (List.mem_append_left _ he)
    obtain ⟨-, -, r3⟩ := ref_inv progSettings (logOps ms ++ [.update m])
    obtain ⟨g1, g2⟩ := mem_counted _ _ _ (r3.subset hk)
    refine ⟨k, ?_, (counts_prog k).mp g2, hke, by rw [hkk]⟩
    rcases List.mem_append.mp g1 with hx | hx
    · exact List.mem_append_left _ ((mem_logOps ms k).mp hx)
    · rw [List.mem_singleton] at hx
      cases hx
      simp
  · have := h2 hd
    unfold lastPacket at he
    rw [this] at he
    simp at he

/-- The packets of a log: their entries, and how many there are. -/
theorem packets_spec (s : MsrSorts) (hs : s.Lawful) (ms : List Msr) (h : MsrOk ms) :
    (∀ p ∈ splitToPackets s ms, ∀ e ∈ p, (-100 < e.rssi ∧ e.rssi < 0) ∧
      ∃ k ∈ ms, (-100 < k.rssi ∧ k.rssi < 0) ∧ k.id = e.id ∧ k.ts = e.ts) ∧
    ((splitToPackets s ms).length = 0 ∨ ∃ clock mark first, (refRun progSettings (logOps ms)).times = some (clock, mark) ∧
      first ∈ ms ∧ (-100 < first.rssi ∧ first.rssi < 0) ∧ (counted progSettings (logOps ms)).head? = some first ∧
      first.ts + 2000 * ((splitToPackets s ms).length : Int) ≤ mark) := by
  induction ms using List.reverseRecOn with
  | nil => exact ⟨by simp [splitToPackets], .inl rfl⟩
  | append_singleton ms m ih =>
    obtain ⟨i1, i2⟩ := ih (fun x hx => h x (List.mem_append_left _ hx))
    have he := packet_entries s hs ms m h
    have hts := timesOk ms m h
    obtain ⟨d1, d2⟩ := C70_report s hs progSettings _ hts
    have hcnt : counted progSettings (logOps (ms ++ [m])) = counted progSettings (logOps ms ++ [.update m]) := by
      rw [logOps_snoc, counted_append]; simp [counted]
    have hR : refRun progSettings (logOps (ms ++ [m])) =
        (refRun progSettings (logOps ms ++ [.update m])).step progSettings .extract := by
      rw [logOps_snoc]; unfold refRun; rw [List.foldl_append]; rfl
    have hU : refRun progSettings (logOps ms ++ [.update m]) =
        (refRun progSettings (logOps ms)).step progSettings (.update m) := by
      unfold refRun; rw [List.foldl_append]; rfl
    -- the mark never goes back
    have hmark : ∀ clock mark, (refRun progSettings (logOps ms)).times = some (clock, mark) →
        ∃ clock', clock ≤ clock' ∧ (refRun progSettings (logOps ms ++ [.update m])).times = some (clock', mark) := by
      intro clock mark ht
      rw [hU]
      unfold Ref.step
      by_cases hc : Counts progSettings m
      · simp only [hc, if_true, ht]
        exact ⟨_, le_max_left _ _, rfl⟩
      · simp only [hc, if_false]
        exact ⟨clock, le_refl _, ht⟩
    have hext : ∀ clock mark, (refRun progSettings (logOps ms ++ [.update m])).times = some (clock, mark) →
        (refRun progSettings (logOps (ms ++ [m]))).times = some (clock, if 2000 ≤ clock - mark then clock else mark) := by
      intro clock mark ht
      rw [hR]
      unfold Ref.step
      simp only [ht]
      rw [prog_shift]
      by_cases h2 : 2000 ≤ clock - mark
      · simp only [h2, if_true]
      · simp only [h2, if_false]
        exact ht
    have hhead : ∀ first, (counted progSettings (logOps ms)).head? = some first →
        (counted progSettings (logOps (ms ++ [m]))).head? = some first := by
      intro first hf
      rw [hcnt, counted_append]
      cases hcc : counted progSettings (logOps ms) with
      | nil => rw [hcc] at hf; simp at hf
      | cons a l => rw [hcc] at hf; simpa using hf
    rw [splitToPackets_snoc]
    split_ifs with hp
    · refine ⟨?_, ?_⟩
      · intro p hpp e hee
        obtain ⟨a, k, hk, b⟩ := i1 p hpp e hee
        exact ⟨a, k, List.mem_append_left _ hk, b⟩
      · rcases i2 with i2 | ⟨clock, mark, first, t1, t2, t3, t4, t5⟩
        · exact .inl i2
        · obtain ⟨clock', hle, ht'⟩ := hmark clock mark t1
          have := hext _ _ ht'
          refine .inr ⟨_, _, first, this, List.mem_append_left _ t2, t3, hhead first t4, ?_⟩
          split_ifs <;> omega
    · have hdue : Due progSettings (refRun progSettings (logOps ms ++ [.update m])) := by
        by_contra hd
        exact hp (d2 hd)
      obtain ⟨clock, mark, ht, hg⟩ := hdue
      rw [prog_shift] at hg
      have hx := hext _ _ ht
      rw [if_pos hg] at hx
      refine ⟨?_, .inr ?_⟩
      · intro p hpp e hee
        rcases List.mem_append.mp hpp with hpp | hpp
        · obtain ⟨a, k, hk, b⟩ := i1 p hpp e hee
          exact ⟨a, k, List.mem_append_left _ hk, b⟩
        · rw [List.mem_singleton] at hpp
          subst hpp
          exact he e hee
      · rw [List.length_append, List.length_singleton]
        rcases i2 with i2 | ⟨clock0, mark0, first, t1, t2, t3, t4, t5⟩
        · obtain ⟨-, r2, -⟩ := ref_inv progSettings (logOps ms ++ [.update m])
          obtain ⟨first, f1, f2, f3, -⟩ := r2 clock mark ht
          obtain ⟨q1, q2⟩ := mem_counted _ _ _ (List.mem_of_mem_head? f1)
          refine ⟨_, _, first, hx, ?_, (counts_prog _).mp q2, by rw [hcnt]; exact f1, ?_⟩
          · rcases List.mem_append.mp q1 with hx | hx
            · exact List.mem_append_left _ ((mem_logOps ms _).mp hx)
            · rw [List.mem_singleton] at hx
              cases hx
              simp
          · rw [i2]; push_cast; omega
        · obtain ⟨clock', hle, ht'⟩ := hmark clock0 mark0 t1
          rw [ht] at ht'
          cases ht'
          refine ⟨_, _, first, hx, List.mem_append_left _ t2, t3, hhead first t4, ?_⟩
          push_cast; omega

theorem packets_count (s : MsrSorts) (hs : s.Lawful) (ms : List Msr) (h : MsrOk ms) :
    splitToPackets s ms = [] ∨ ∃ first ∈ ms, ∃ last ∈ ms, (-100 < first.rssi ∧ first.rssi < 0) ∧ (-100 < last.rssi ∧ last.rssi < 0) ∧
      2000 * ((splitToPackets s ms).length : Int) ≤ last.ts - first.ts := by
  rcases (packets_spec s hs ms h).2 with h0 | ⟨clock, mark, first, t1, t2, t3, t4, t5⟩
  · exact .inl (List.length_eq_zero_iff.mp h0)
  · obtain ⟨-, r2, -⟩ := ref_inv progSettings (logOps ms)
    obtain ⟨f, f1, f2, f3, f4, ⟨last, f5, f6⟩, -⟩ := r2 clock mark t1
    obtain ⟨q1, q2⟩ := mem_counted _ _ _ f5
    exact .inr ⟨first, t2, last, (mem_logOps ms _).mp q1, t3, (counts_prog _).mp q2, by omega⟩

theorem packets_prefix (s : MsrSorts) (ms more : List Msr) : ∃ r, splitToPackets s (ms ++ more) = splitToPackets s ms ++ r := by
  induction more using List.reverseRecOn with
  | nil => exact ⟨[], by simp⟩
  | append_singleton more m ih =>
    obtain ⟨r, hr⟩ := ih
    rw [← List.append_assoc, splitToPackets_snoc, hr]
    split_ifs
    · exact ⟨r, rfl⟩
    · exact ⟨r ++ [lastPacket s (ms ++ more) m], by rw [List.append_assoc]⟩

/-! ## The output lines -/

/-- The output line of a position. -/
def lineOf (p : SPos) : OutLine := ⟨p.ts, p.x, p.y, p.precision⟩

theorem mainStep_eq (st : NearestTx × List OutLine) (p : List Msr) : mainStep st p = ((calculatePosition st.1 p).2,
    if (calculatePosition st.1 p).1.isEmpty = false then st.2 ++ [lineOf (calculatePosition st.1 p).1] else st.2) := rfl

theorem main_snoc (txs : List Tx) (ps : List (List Msr)) (p : List Msr) :
    (ps ++ [p]).foldl mainStep (NearestTx.init txs, []) = mainStep (ps.foldl mainStep (NearestTx.init txs, [])) p := by
  rw [List.foldl_append]; rfl

theorem main_state (txs : List Tx) (ps : List (List Msr)) :
    (ps.foldl mainStep (NearestTx.init txs, [])).1 = estRun txs ps := by
  induction ps using List.reverseRecOn with
  | nil => rfl
  | append_singleton ps p ih =>
    rw [main_snoc, mainStep_eq, ih]
    unfold estRun
    rw [List.foldl_append]
    rfl

/-- The smoother either repeats its position or gives one with the time, precision of the input. -/
theorem smooth_cases (s : Smoother) (p : SPos) :
    (p.ts ≤ s.position.ts ∧ smoothPosition s p = (s.position, s)) ∨
    (s.position.ts < p.ts ∧ (smoothPosition s p).1.ts = p.ts ∧ (smoothPosition s p).1.precision = p.precision ∧
      (smoothPosition s p).1.isEmpty = p.isEmpty ∧ (smoothPosition s p).2.position = (smoothPosition s p).1) := by
  by_cases h : p.ts > s.position.ts
  · right
    unfold smoothPosition
    rw [if_pos h]
    dsimp only
    split_ifs
    · exact ⟨h, rfl, rfl, rfl, rfl⟩
    · exact ⟨h, rfl, rfl, rfl, rfl⟩
  · left
    unfold smoothPosition
    rw [if_neg h]
    exact ⟨by omega, rfl⟩

/-- A line written for one of the packets. -/
def FromPacket (txs : List Tx) (ps : List (List Msr)) (l : OutLine) : Prop :=
  ∃ p ∈ ps, ∃ t rssi, NearestIs txs p t rssi l.ts ∧ l.precision = Real.sqrt (Real.exp ((-82 - rssi) / 3)) + 1

theorem main_lines (txs : List Tx) (ps : List (List Msr)) :
    let st := ps.foldl mainStep (NearestTx.init txs, [])
    st.2.length ≤ ps.length ∧ st.2.Pairwise (fun a b => a.ts < b.ts ∨ a = b) ∧ (∀ l ∈ st.2, FromPacket txs ps l) ∧
    (∀ l ∈ st.2, l.ts < st.1.smoother.position.ts ∨ l = lineOf st.1.smoother.position) ∧
    (st.1.smoother.position.isEmpty = false → FromPacket txs ps (lineOf st.1.smoother.position)) := by
  intro st
  induction ps using List.reverseRecOn with
  | nil => exact ⟨le_refl _, List.Pairwise.nil, by simp [st], by simp [st], by simp [st, NearestTx.init, Smoother.init, SPos.default]⟩
  | append_singleton ps p ih =>
    obtain ⟨i1, i2, i3, i4, i5⟩ := ih
    have hfrom : ∀ l, FromPacket txs ps l → FromPacket txs (ps ++ [p]) l := by
      rintro l ⟨q, hq, r⟩
      exact ⟨q, List.mem_append_left _ hq, r⟩
    have hst : st = mainStep (ps.foldl mainStep (NearestTx.init txs, [])) p := main_snoc txs ps p
    generalize hs0 : ps.foldl mainStep (NearestTx.init txs, []) = s0 at *
    have htx : s0.1.transmitters = txs.foldl (fun m t => StdMap.set m t.id t) [] := by
      rw [← hs0, main_state, estRun_txs]
    obtain ⟨c1, c2⟩ := calculate_cases txs s0.1 htx p
    rw [hst, mainStep_eq]
    by_cases hreg : registered txs p = []
    · rw [c1 hreg]
      dsimp only
      rw [if_neg (by simp [SPos.default])]
      refine ⟨by simp; omega, i2, fun l hl => hfrom l (i3 l hl), i4, fun h => hfrom _ (i5 h)⟩
    · obtain ⟨t, rssi, ts, hn, hc⟩ := c2 hreg
      rw [hc]
      dsimp only
      rcases smooth_cases s0.1.smoother (rawPosition t rssi ts) with ⟨g1, g2⟩ | ⟨g1, g2, g3, g4, g5⟩
      · rw [g2]
        dsimp only
        by_cases he : s0.1.smoother.position.isEmpty = false
        · rw [if_pos he]
          refine ⟨by simp; omega, ?_, ?_, ?_, fun h => hfrom _ (i5 h)⟩
          · rw [List.pairwise_append]
            refine ⟨i2, List.pairwise_singleton _ _, ?_⟩
            intro a ha b hb
            rw [List.mem_singleton] at hb
            rw [hb]
            exact i4 a ha
          · intro l hl
            rcases List.mem_append.mp hl with hl | hl
            · exact hfrom l (i3 l hl)
            · rw [List.mem_singleton] at hl
              rw [hl]
              exact hfrom _ (i5 he)
          · intro l hl
            rcases List.mem_append.mp hl with hl | hl
            · exact i4 l hl
            · rw [List.mem_singleton] at hl
              exact .inr hl
        · rw [if_neg he]
          exact ⟨by simp; omega, i2, fun l hl => hfrom l (i3 l hl), i4, fun h => hfrom _ (i5 h)⟩
      · have hnew : FromPacket txs (ps ++ [p]) (lineOf (smoothPosition s0.1.smoother (rawPosition t rssi ts)).1) := by
          refine ⟨p, by simp, t, rssi, ?_, g3⟩
          have : (lineOf (smoothPosition s0.1.smoother (rawPosition t rssi ts)).1).ts = ts := g2
          rw [this]
          exact hn
        rw [if_pos (show (smoothPosition s0.1.smoother (rawPosition t rssi ts)).1.isEmpty = false from g4), g5]
        have hold : ∀ l ∈ s0.2, l.ts < (smoothPosition s0.1.smoother (rawPosition t rssi ts)).1.ts := by
          intro l hl
          rw [g2]
          have h0 : (rawPosition t rssi ts).ts = ts := rfl
          rcases i4 l hl with h | h
          · omega
          · rw [h]; exact g1
        refine ⟨by simp; omega, ?_, ?_, ?_, fun _ => hnew⟩
        · rw [List.pairwise_append]
          refine ⟨i2, List.pairwise_singleton _ _, ?_⟩
          intro a ha b hb
          rw [List.mem_singleton] at hb
          rw [hb]
          exact .inl (hold a ha)
        · intro l hl
          rcases List.mem_append.mp hl with hl | hl
          · exact hfrom l (i3 l hl)
          · rw [List.mem_singleton] at hl
            rw [hl]
            exact hnew
        · intro l hl
          rcases List.mem_append.mp hl with hl | hl
          · exact .inl (hold l hl)
          · rw [List.mem_singleton] at hl
            exact .inr hl

theorem getMeasurements_ok (file : List (Option MsrLine)) (h : LogOk file) : MsrOk (getMeasurements file) := by
  intro m hm hc
  rw [getMeasurements_eq] at hm
  obtain ⟨l, hl, rfl⟩ := List.mem_map.mp hm
  exact h l hl hc

/-- **C108.** The output of the program, for any two files: between two lines the time grows, or the line is repeated
literally; every line carries the time of a counting line of the log that is about a transmitter on the list; its precision
is above 1 and below 1 + e³; and there is at most one line for every two seconds between two counting lines of the log. -/
theorem C108_lines (s : MsrSorts) (hs : s.Lawful) (txFile : List (Option TxLine)) (log : List (Option MsrLine)) (hok : LogOk log) :
    let out := positionMain s txFile log
    out.Pairwise (fun a b => a.ts < b.ts ∨ a = b) ∧
    (∀ l ∈ out, (∃ k ∈ readable log, LineCounts k ∧ k.ts = l.ts ∧ ∃ t ∈ readable txFile, t.id = k.id) ∧
      1 < l.precision ∧ l.precision < 1 + Real.exp 3) ∧
    (out = [] ∨ ∃ first ∈ readable log, ∃ last ∈ readable log, LineCounts first ∧ LineCounts last ∧
      2000 * (out.length : Int) ≤ last.ts - first.ts) := by
  intro out
  have hm := getMeasurements_ok log hok
  obtain ⟨a1, a2, a3, -, -⟩ := main_lines (getTransmitters txFile) (splitToPackets s (getMeasurements log))
  have hout : out = ((splitToPackets s (getMeasurements log)).foldl mainStep (NearestTx.init (getTransmitters txFile), [])).2 := rfl
  rw [← hout] at a1 a2 a3
  obtain ⟨b1, -⟩ := packets_spec s hs _ hm
  refine ⟨a2, ?_, ?_⟩
  · intro l hl
    obtain ⟨p, hp, t, rssi, ⟨before, m, after, n1, -, -, n4, -, e, n6, n7⟩, hprec⟩ := a3 l hl
    have hmem : ∀ x ∈ registered (getTransmitters txFile) p, x ∈ p ∧ ∃ t ∈ getTransmitters txFile, t.id = x.id := by
      intro x hx
      obtain ⟨x1, x2⟩ := List.mem_filter.mp hx
      refine ⟨x1, ?_⟩
      simpa using x2
    obtain ⟨e1, t', e2, e3⟩ := hmem e (List.mem_of_mem_getLast? n6)
    obtain ⟨m1, -⟩ := hmem m (by rw [n1]; simp)
    obtain ⟨⟨r1, r2⟩, -⟩ := b1 p hp m m1
    obtain ⟨-, k, k1, k2, k3, k4⟩ := b1 p hp e e1
    rw [getMeasurements_eq] at k1
    obtain ⟨k', kk, rfl⟩ := List.mem_map.mp k1
    rw [getTransmitters_eq] at e2
    obtain ⟨t'', tt, rfl⟩ := List.mem_map.mp e2
    refine ⟨⟨k', kk, k2, by rw [← n7]; exact k4, t'', tt, ?_⟩, ?_⟩
    · exact e3.trans k3.symm
    · rw [hprec]
      have hs1 : Real.sqrt (Real.exp ((-82 - rssi) / 3)) = Real.exp ((-82 - rssi) / 6) := by
        rw [show Real.exp ((-82 - rssi) / 3) = Real.exp ((-82 - rssi) / 6) ^ 2 by rw [← Real.exp_nat_mul]; congr 1; push_cast; ring]
        exact Real.sqrt_sq (Real.exp_pos _).le
      rw [hs1]
      have := Real.exp_pos ((-82 - rssi) / 6)
      have h3 : Real.exp ((-82 - rssi) / 6) < Real.exp 3 := Real.exp_lt_exp.mpr (by rw [← n4]; linarith)
      exact ⟨by linarith, by linarith⟩
  · rcases packets_count s hs _ hm with h0 | ⟨first, f1, last, l1, fc, lc, hcount⟩
    · rw [h0] at a1
      exact .inl (List.length_eq_zero_iff.mp (Nat.le_zero.mp a1))
    · rw [getMeasurements_eq] at f1 l1
      obtain ⟨f', ff, rfl⟩ := List.mem_map.mp f1
      obtain ⟨l', ll, rfl⟩ := List.mem_map.mp l1
      refine .inr ⟨f', ff, l', ll, fc, lc, ?_⟩
      have : (out.length : Int) ≤ (splitToPackets s (getMeasurements log)).length := by exact_mod_cast a1
      dsimp only at hcount
      omega

/-- **C108.** The program is a filter: a longer log gives the same lines and possibly more; a line that cannot be read ends
the log, or the list of transmitters, whatever follows it. -/
theorem C108_prefix (s : MsrSorts) (txFile : List (Option TxLine)) (log : List (Option MsrLine)) :
    (∀ more, positionMain s txFile log <+: positionMain s txFile (log ++ more)) ∧
    (∀ rest, positionMain s txFile (log ++ none :: rest) = positionMain s txFile log) ∧
    (∀ rest, positionMain s (txFile ++ none :: rest) log = positionMain s txFile log) := by
  refine ⟨?_, ?_, ?_⟩
  · intro more
    obtain ⟨r, hr⟩ := readable_prefix log more
    unfold positionMain
    dsimp only
    rw [getMeasurements_eq, getMeasurements_eq, hr, List.map_append]
    obtain ⟨q, hq⟩ := packets_prefix s ((readable log).map (fun l => (⟨typeOf l.typeStr, l.ts, l.id, l.rssi, 0, 0, 0, 0⟩ : Msr)))
      (r.map (fun l => (⟨typeOf l.typeStr, l.ts, l.id, l.rssi, 0, 0, 0, 0⟩ : Msr)))
    rw [hq, List.foldl_append]
    clear hq
    generalize List.foldl mainStep (NearestTx.init (getTransmitters txFile), []) _ = st
    induction q generalizing st with
    | nil => exact List.prefix_refl _
    | cons p q ih =>
      rw [List.foldl_cons]
      refine List.IsPrefix.trans ?_ (ih (mainStep st p))
      rw [mainStep_eq]
      dsimp only
      split_ifs
      · exact List.prefix_append _ _
      · exact List.prefix_refl _
  · intro rest
    unfold positionMain
    rw [getMeasurements_eq, getMeasurements_eq, readable_append_none]
  · intro rest
    unfold positionMain
    rw [getTransmitters_eq, getTransmitters_eq, readable_append_none]

/-! ## Moving the map -/

/-- Two smoothers, the second one with everything moved. -/
structure MovedSm (T : Affine) (s s' : Smoother) : Prop where
  called : s'.wasCalled = s.wasCalled
  alpha : s'.alpha = s.alpha
  ts : s'.position.ts = s.position.ts
  empty : s'.position.isEmpty = s.position.isEmpty
  precision : s'.position.precision = s.position.precision
  fresh : s.wasCalled = false → s.position.isEmpty = true
  place : s.wasCalled = true → s'.position.x = T.x s.position.x s.position.y ∧ s'.position.y = T.y s.position.x s.position.y ∧
    s'.speedX = T.a * s.speedX + T.b * s.speedY ∧ s'.speedY = T.c * s.speedX + T.d * s.speedY

theorem moved_smooth (T : Affine) (s s' : Smoother) (h : MovedSm T s s') (p p' : SPos) (hts : p'.ts = p.ts)
    (he : p'.isEmpty = p.isEmpty) (hp : p'.precision = p.precision) (hx : p'.x = T.x p.x p.y) (hy : p'.y = T.y p.x p.y) :
    MovedSm T (smoothPosition s p).2 (smoothPosition s' p').2 ∧
    ((smoothPosition s' p').1.isEmpty = (smoothPosition s p).1.isEmpty) ∧
    ((smoothPosition s p).1.isEmpty = false → lineOf (smoothPosition s' p').1 = T.line (lineOf (smoothPosition s p).1)) := by
  by_cases hgt : p.ts > s.position.ts
  · have hgt' : p'.ts > s'.position.ts := by rw [hts, h.ts]; exact hgt
    unfold smoothPosition
    rw [if_pos hgt, if_pos hgt']
    dsimp only
    have ht : p'.ts - s'.position.ts = p.ts - s.position.ts := by rw [hts, h.ts]
    rw [ht, h.called, h.alpha]
    by_cases h2 : s.wasCalled = false ∨ ((p.ts - s.position.ts : Int) : ℝ) / 1000 > 10
    · rw [if_pos h2, if_pos h2]
      refine ⟨⟨rfl, rfl, hts, he, hp, by simp, fun _ => ⟨hx, hy, by simp, by simp⟩⟩, he, fun _ => ?_⟩
      unfold lineOf Affine.line
      dsimp only
      rw [hts, hx, hy, hp]
    · rw [if_neg h2, if_neg h2]
      push Not at h2
      have hc : s.wasCalled = true := by simpa using h2.1
      obtain ⟨g1, g2, g3, g4⟩ := h.place hc
      refine ⟨⟨rfl, rfl, hts, he, hp, by simp [hc], fun _ => ?_⟩, he, fun _ => ?_⟩
      · dsimp only
        rw [g1, g2, g3, g4, hx, hy]
        unfold Affine.x Affine.y
        refine ⟨by ring, by ring, by ring, by ring⟩
      · unfold lineOf Affine.line
        dsimp only
        rw [g1, g2, g3, g4, hx, hy, hts, hp]
        unfold Affine.x Affine.y
        congr 1 <;> ring
  · have hgt' : ¬ p'.ts > s'.position.ts := by rw [hts, h.ts]; exact hgt
    unfold smoothPosition
    rw [if_neg hgt, if_neg hgt']
    refine ⟨h, h.empty, ?_⟩
    intro hne
    have hc : s.wasCalled = true := by
      cases hcc : s.wasCalled with
      | true => rfl
      | false => have := h.fresh hcc; dsimp only at hne; rw [this] at hne; cases hne
    obtain ⟨g1, g2, -, -⟩ := h.place hc
    unfold lineOf Affine.line
    dsimp only
    rw [g1, g2, h.ts, h.precision]

/-- A transmitter with its place moved. -/
def Affine.tx (T : Affine) (t : Tx) : Tx := { t with x := T.x t.x t.y, y := T.y t.x t.y }

theorem registered_moved (T : Affine) (txs : List Tx) (p : List Msr) : registered (txs.map T.tx) p = registered txs p := by
  unfold registered
  congr 1
  funext m
  rw [List.any_map]
  rfl

theorem nearest_moved (T : Affine) (txs : List Tx) (p : List Msr) (t : Tx) (r : ℝ) (ts : Int) (h : NearestIs txs p t r ts) :
    NearestIs (txs.map T.tx) p (T.tx t) r ts := by
  obtain ⟨b, m, a, h1, h2, h3, h4, ⟨tb, ta, h5, h6, h7⟩, l, h8, h9⟩ := h
  refine ⟨b, m, a, by rw [registered_moved]; exact h1, h2, h3, h4, ⟨tb.map T.tx, ta.map T.tx, by rw [h5]; simp, h6, ?_⟩,
    l, by rw [registered_moved]; exact h8, h9⟩
  intro u hu
  obtain ⟨v, hv, rfl⟩ := List.mem_map.mp hu
  exact h7 v hv

theorem main_moved (T : Affine) (txs : List Tx) (ps : List (List Msr)) :
    let st := ps.foldl mainStep (NearestTx.init txs, [])
    let st' := ps.foldl mainStep (NearestTx.init (txs.map T.tx), [])
    st'.2 = st.2.map T.line ∧ MovedSm T st.1.smoother st'.1.smoother := by
  intro st st'
  induction ps using List.reverseRecOn with
  | nil => exact ⟨rfl, ⟨rfl, rfl, rfl, rfl, rfl, fun _ => rfl, fun h => by simp [st, NearestTx.init, Smoother.init] at h⟩⟩
  | append_singleton ps p ih =>
    have hst : st = mainStep (ps.foldl mainStep (NearestTx.init txs, [])) p := main_snoc _ ps p
    have hst' : st' = mainStep (ps.foldl mainStep (NearestTx.init (txs.map T.tx), [])) p := main_snoc _ ps p
    obtain ⟨i1, i2⟩ := ih
    generalize hs0 : ps.foldl mainStep (NearestTx.init txs, []) = s0 at *
    generalize hs1 : ps.foldl mainStep (NearestTx.init (txs.map T.tx), []) = s1 at *
    have htx : s0.1.transmitters = txs.foldl (fun m t => StdMap.set m t.id t) [] := by
      rw [← hs0, main_state, estRun_txs]
    have htx' : s1.1.transmitters = (txs.map T.tx).foldl (fun m t => StdMap.set m t.id t) [] := by
      rw [← hs1, main_state, estRun_txs]
    obtain ⟨c1, c2⟩ := calculate_cases txs s0.1 htx p
    obtain ⟨d1, d2⟩ := calculate_cases _ s1.1 htx' p
    rw [registered_moved] at d1 d2
    rw [hst, hst', mainStep_eq, mainStep_eq]
    by_cases hreg : registered txs p = []
    · rw [c1 hreg, d1 hreg]
      dsimp only
      rw [if_neg (by simp [SPos.default]), if_neg (by simp [SPos.default])]
      exact ⟨i1, i2⟩
    · obtain ⟨t, rssi, ts, hn, hc⟩ := c2 hreg
      obtain ⟨t', rssi', ts', hn', hc'⟩ := d2 hreg
      obtain ⟨e1, e2, e3⟩ := nearest_unique hn' (nearest_moved T txs p t rssi ts hn)
      subst e1 e2 e3
      rw [hc, hc']
      dsimp only
      obtain ⟨m1, m2, m3⟩ := moved_smooth T s0.1.smoother s1.1.smoother i2 (rawPosition t rssi' ts') (rawPosition (T.tx t) rssi' ts')
        rfl rfl rfl rfl rfl
      refine ⟨?_, m1⟩
      rw [m2]
      split_ifs with hne
      · rw [m3 hne, i1, List.map_append]
        rfl
      · exact i1

theorem file_moved (T : Affine) (file : List (Option TxLine)) : getTransmitters (T.file file) = (getTransmitters file).map T.tx := by
  induction file with
  | nil => rfl
  | cons o ls ih =>
    cases o with
    | none => rfl
    | some l => exact congrArg _ ih

/-- **C108.** Moving all transmitters by a shift, a turn, a reflection, a change of scale or any other affine map of the plane
moves the places of all output lines in the same way and changes nothing else. -/
theorem C108_moved (s : MsrSorts) (T : Affine) (txFile : List (Option TxLine)) (log : List (Option MsrLine)) :
    positionMain s (T.file txFile) log = (positionMain s txFile log).map T.line := by
  unfold positionMain
  dsimp only
  rw [file_moved]
  exact (main_moved T _ _).1

/-- **C108.** If all transmitters on the list lie on a line of the map, so do all positions; in particular, if all
are at one place, every output line is exactly there. -/
theorem C108_collinear (s : MsrSorts) (a b c : ℝ) (txFile : List (Option TxLine)) (log : List (Option MsrLine))
    (h : ∀ t ∈ readable txFile, a * t.x + b * t.y = c) : ∀ l ∈ positionMain s txFile log, a * l.x + b * l.y = c := by
  intro l hl
  -- the map that writes the value of the line's equation into the first coordinate, and the one that writes `c`
  have h1 := C108_moved s ⟨a, b, 0, 0, 0, 0⟩ txFile log
  have h2 := C108_moved s ⟨0, 0, 0, 0, c, 0⟩ txFile log
  have hrd : ∀ (T : Affine) (file : List (Option TxLine)),
      getTransmitters (T.file file) = (readable file).map (fun t => ⟨t.id, T.x t.x t.y, T.y t.x t.y⟩) := by
    intro T file
    rw [file_moved, getTransmitters_eq, List.map_map]
    rfl
  have e : positionMain s (Affine.file ⟨a, b, 0, 0, 0, 0⟩ txFile) log = positionMain s (Affine.file ⟨0, 0, 0, 0, c, 0⟩ txFile) log := by
    have hl : (readable txFile).map (fun t => (⟨t.id, Affine.x ⟨a, b, 0, 0, 0, 0⟩ t.x t.y, Affine.y ⟨a, b, 0, 0, 0, 0⟩ t.x t.y⟩ : Tx)) =
        (readable txFile).map (fun t => (⟨t.id, Affine.x ⟨0, 0, 0, 0, c, 0⟩ t.x t.y, Affine.y ⟨0, 0, 0, 0, c, 0⟩ t.x t.y⟩ : Tx)) := ?_
    · unfold positionMain
      rw [hrd, hrd, hl]
    refine List.map_congr_left ?_
    intro t ht
    have := h t ht
    unfold Affine.x Affine.y
    dsimp only
    congr 1 <;> linarith
  rw [h1, h2] at e
  have key := List.map_inj_left.mp e l hl
  have := congrArg OutLine.x key
  unfold Affine.line Affine.x at this
  dsimp only at this
  linarith

/-! ## The first line -/

theorem main_head (txs : List Tx) (ps : List (List Msr)) :
    let st := ps.foldl mainStep (NearestTx.init txs, [])
    (st.2 = [] → st.1.smoother = Smoother.init (9 / 10)) ∧
    ∀ l, st.2.head? = some l → ∃ t ∈ txs, l.x = t.x ∧ l.y = t.y := by
  intro st
  induction ps using List.reverseRecOn with
  | nil => exact ⟨fun _ => rfl, by simp [st]⟩
  | append_singleton ps p ih =>
    have hst : st = mainStep (ps.foldl mainStep (NearestTx.init txs, [])) p := main_snoc _ ps p
    obtain ⟨i1, i2⟩ := ih
    generalize hs0 : ps.foldl mainStep (NearestTx.init txs, []) = s0 at *
    have htx : s0.1.transmitters = txs.foldl (fun m t => StdMap.set m t.id t) [] := by
      rw [← hs0, main_state, estRun_txs]
    obtain ⟨c1, c2⟩ := calculate_cases txs s0.1 htx p
    rw [hst, mainStep_eq]
    by_cases hreg : registered txs p = []
    · rw [c1 hreg]
      dsimp only
      rw [if_neg (by simp [SPos.default])]
      exact ⟨i1, i2⟩
    · obtain ⟨t, rssi, ts, hn, hc⟩ := c2 hreg
      rw [hc]
      dsimp only
      by_cases h0 : s0.2 = []
      · rw [i1 h0, h0]
        by_cases hts : ts > -1
        · have hsm : smoothPosition (Smoother.init (9 / 10)) (rawPosition t rssi ts) =
              (rawPosition t rssi ts, ⟨true, 0, 0, (Smoother.init (9 / 10)).alpha, rawPosition t rssi ts⟩) := by
            unfold smoothPosition
            rw [if_pos (show (rawPosition t rssi ts).ts > (Smoother.init (9 / 10)).position.ts from hts)]
            dsimp only
            rw [if_pos (Or.inl (show (Smoother.init (9 / 10)).wasCalled = false from rfl))]
          rw [hsm]
          dsimp only
          rw [if_pos (show (rawPosition t rssi ts).isEmpty = false from rfl)]
          refine ⟨by simp, ?_⟩
          intro l hl
          simp only [List.nil_append, List.head?_cons, Option.some.injEq] at hl
          obtain ⟨-, -, -, -, -, -, -, ⟨b, a, hba, -⟩, -⟩ := hn
          exact ⟨t, by rw [hba]; simp, by rw [← hl]; rfl, by rw [← hl]; rfl⟩
        · have hsm : smoothPosition (Smoother.init (9 / 10)) (rawPosition t rssi ts) =
              ((Smoother.init (9 / 10)).position, Smoother.init (9 / 10)) := by
            unfold smoothPosition
            rw [if_neg (show ¬ (rawPosition t rssi ts).ts > (Smoother.init (9 / 10)).position.ts from hts)]
          rw [hsm]
          dsimp only
          rw [if_neg (by simp [Smoother.init, SPos.default])]
          exact ⟨fun _ => rfl, by simp⟩
      · obtain ⟨a, l0, hl0⟩ := List.exists_cons_of_ne_nil h0
        rw [hl0] at i2 ⊢
        split_ifs
        · refine ⟨by simp, ?_⟩
          intro l hl
          exact i2 l (by simpa using hl)
        · exact ⟨by simp, i2⟩

/-- **C108.** The first line of the output is exactly at the place of a transmitter on the list. -/
theorem C108_first (s : MsrSorts) (txFile : List (Option TxLine)) (log : List (Option MsrLine)) (l : OutLine)
    (h : (positionMain s txFile log).head? = some l) : ∃ t ∈ readable txFile, l.x = t.x ∧ l.y = t.y := by
  obtain ⟨t, ht, hx, hy⟩ := (main_head (getTransmitters txFile) (splitToPackets s (getMeasurements log))).2 l h
  rw [getTransmitters_eq] at ht
  obtain ⟨t', ht', rfl⟩ := List.mem_map.mp ht
  exact ⟨t', ht', hx, hy⟩

/-! ## Finding: a stale packet -/

theorem sorts_one {α : Type} {lt : α → α → Prop} {f : List α → List α} (h : SortsBy lt f) (a : α) : f [a] = [a] :=
  List.perm_singleton.mp (h.perm [a])

theorem sorts_two {α : Type} {lt : α → α → Prop} {f : List α → List α} (h : SortsBy lt f) (a b : α) (hab : lt a b)
    (l : List α) (hl : l.Perm [a, b]) : f l = [a, b] := by
  have hp : (f l).Perm [a, b] := (h.perm l).trans hl
  rcases List.perm_pair.mp hp with e | e
  · exact e
  · have := h.sorted l
    rw [e] at this
    simp only [List.pairwise_cons, List.mem_singleton, forall_eq, List.not_mem_nil] at this
    exact absurd hab this.1

/-- The measurements of the example. -/
noncomputable def exA (ts : Int) : Msr := ⟨.BEACON, ts, "a", -60, 0, 0, 0, 0⟩
noncomputable def exC (ts : Int) : Msr := ⟨.BEACON, ts, "c", -50, 0, 0, 0, 0⟩

theorem exPackets (s : MsrSorts) (hs : s.Lawful) :
    splitToPackets s [exA 0, exA 2000, exC 4000] = [[exA 2000], [exC 4000, exA 2000]] := by
  have hav := prog_average
  have hsh := prog_shift
  have hinit : Pre.init 3 2 true true = ⟨⟨[], -1, -1, 1000, 2000⟩, -1, true, true⟩ := by
    have h1 : Verif.Radio.truncToInt (1000 * 3) = 3000 := hav
    have h2 : Verif.Radio.truncToInt (1000 * 2) = 2000 := by
      have : (1000 * 2 : ℝ) = ((2000 : ℤ) : ℝ) := by norm_num
      simp only [Verif.Radio.truncToInt]
      rw [if_pos (by norm_num), this, Int.floor_intCast]
    unfold Pre.init
    simp only [h1, h2, Buf.init]
    norm_num
  have hvA : ∀ ts, isMsrRssiValid (exA ts).rssi = true := by intro ts; simp [isMsrRssiValid, exA]; norm_num
  have hvC : ∀ ts, isMsrRssiValid (exC ts).rssi = true := by intro ts; simp [isMsrRssiValid, exC]; norm_num
  have hempty : s.byRssi [] = [] := List.perm_nil.mp (hs.byRssi.perm [])
  have s1 : splitStep s (⟨⟨[], -1, -1, 1000, 2000⟩, -1, true, true⟩, []) (exA 0) =
      (⟨⟨[], 0, 0, 1000, 2000⟩, 0, true, true⟩, []) := by
    have hu : update ⟨⟨[], -1, -1, 1000, 2000⟩, -1, true, true⟩ (exA 0) = ⟨⟨[], 0, 0, 1000, 2000⟩, 0, true, true⟩ := by
      unfold update
      rw [hvA]
      simp [isTypeSupported, addMeasurements, addOne, exA]
    unfold splitStep
    dsimp only
    rw [hu]
    simp [extract, extractMsrs, hempty]
  have avA : averageMsrLoop [exA 2000] = [exA 2000] := by
    rw [averageMsrLoop]
    simp [averageMsrs, exA, averageMsrLoop, divide_eq]
  have avAC : averageMsrLoop [exA 2000, exC 4000] = [exA 2000, exC 4000] := by
    have hlt : (exA 2000).id < (exC 4000).id := (String.lt_iff_toList_lt.mpr (by decide) : "a" < "c")
    rw [averageMsrLoop]
    have h1 : [exC 4000].takeWhile (fun m => !decide ((exA 2000).id < m.id)) = [] := by
      rw [List.takeWhile_cons, if_neg (by simpa using hlt)]
    have h2 : [exC 4000].dropWhile (fun m => !decide ((exA 2000).id < m.id)) = [exC 4000] := by
      rw [List.dropWhile_cons, if_neg (by simpa using hlt)]
    rw [h1, h2, averageMsrLoop]
    simp [averageMsrs, exA, exC, averageMsrLoop, divide_eq]
  have s2 : splitStep s (⟨⟨[], 0, 0, 1000, 2000⟩, 0, true, true⟩, []) (exA 2000) =
      (⟨⟨[exA 2000], 2000, 2000, 1000, 2000⟩, 2000, true, true⟩, [[exA 2000]]) := by
    have hu : update ⟨⟨[], 0, 0, 1000, 2000⟩, 0, true, true⟩ (exA 2000) = ⟨⟨[exA 2000], 0, 2000, 1000, 2000⟩, 2000, true, true⟩ := by
      unfold update
      rw [hvA]
      simp [isTypeSupported, addMeasurements, addOne, exA]
    unfold splitStep
    dsimp only
    rw [hu]
    simp [extract, extractMsrs, sorts_one hs.byId, sorts_one hs.byTs, sorts_one hs.byRssi, avA]
    simp [exA]
  have s3 : splitStep s (⟨⟨[exA 2000], 2000, 2000, 1000, 2000⟩, 2000, true, true⟩, [[exA 2000]]) (exC 4000) =
      (⟨⟨[exC 4000], 4000, 4000, 1000, 2000⟩, 4000, true, true⟩, [[exA 2000], [exC 4000, exA 2000]]) := by
    have hu : update ⟨⟨[exA 2000], 2000, 2000, 1000, 2000⟩, 2000, true, true⟩ (exC 4000) =
        ⟨⟨[exA 2000, exC 4000], 2000, 4000, 1000, 2000⟩, 4000, true, true⟩ := by
      unfold update
      rw [hvC]
      simp [isTypeSupported, addMeasurements, addOne, exC]
    have b1 : s.byId [exA 2000, exC 4000] = [exA 2000, exC 4000] :=
      sorts_two hs.byId _ _ (show "a" < "c" from String.lt_iff_toList_lt.mpr (by decide)) _ (List.Perm.refl _)
    have b2 : s.byTs [exA 2000, exC 4000] = [exA 2000, exC 4000] :=
      sorts_two hs.byTs _ _ (show (2000 : Int) < 4000 by norm_num) _ (List.Perm.refl _)
    have b3 : s.byRssi [exC 4000, exA 2000] = [exA 2000, exC 4000] :=
      sorts_two hs.byRssi _ _ (show (-60 : ℝ) < -50 by norm_num) _ (List.Perm.swap _ _ _)
    unfold splitStep
    dsimp only
    rw [hu]
    simp [extract, extractMsrs, b1, b2, b3, avAC]
    simp [exA, exC]
  unfold splitToPackets
  rw [hinit]
  simp only [List.foldl_cons, List.foldl_nil, s1, s2, s3]

/-- **C108, finding.** The time of a packet is that of its weakest entry. In this log a transmitter `a` is heard at 2 s
and a stronger one, `c`, at 4 s, 100 m away; the second packet has `c` as its nearest transmitter but the time of the old
measurement of `a`, so the first line is written a second time and `c` is ignored. -/
theorem C108_stale (s : MsrSorts) (hs : s.Lawful) : ∃ l : OutLine,
    positionMain s [some ⟨"a", 0, 0, "BEACON"⟩, some ⟨"c", 100, 0, "BEACON"⟩]
      [some ⟨0, "a", -60, "BEACON"⟩, some ⟨2000, "a", -60, "BEACON"⟩, some ⟨4000, "c", -50, "BEACON"⟩] = [l, l] ∧
    l.ts = 2000 ∧ l.x = 0 := by
  have hg : getMeasurements [some ⟨0, "a", -60, "BEACON"⟩, some ⟨2000, "a", -60, "BEACON"⟩, some ⟨4000, "c", -50, "BEACON"⟩] =
      [exA 0, exA 2000, exC 4000] := by
    have : typeOf "BEACON" = .BEACON := by decide
    simp only [getMeasurements, this]
    rfl
  unfold positionMain
  rw [hg, exPackets s hs]
  set txs := getTransmitters [some ⟨"a", 0, 0, "BEACON"⟩, some ⟨"c", 100, 0, "BEACON"⟩] with htx
  have htxs : txs = [⟨"a", 0, 0⟩, ⟨"c", 100, 0⟩] := rfl
  have n1 : NearestIs txs [exA 2000] ⟨"a", 0, 0⟩ (-60) 2000 := by
    have hr : registered txs [exA 2000] = [exA 2000] := by simp [registered, htxs, exA]
    refine ⟨[], exA 2000, [], by rw [hr]; rfl, by simp, by simp, rfl, ⟨[], [⟨"c", 100, 0⟩], htxs, rfl, ?_⟩, exA 2000, by rw [hr]; rfl, rfl⟩
    simp [exA]
  have n2 : NearestIs txs [exC 4000, exA 2000] ⟨"c", 100, 0⟩ (-50) 2000 := by
    have hr : registered txs [exC 4000, exA 2000] = [exC 4000, exA 2000] := by simp [registered, htxs, exA, exC]
    refine ⟨[], exC 4000, [exA 2000], by rw [hr]; rfl, by simp, ?_, rfl, ⟨[⟨"a", 0, 0⟩], [], htxs, rfl, by simp⟩, exA 2000, by rw [hr]; rfl, rfl⟩
    intro k hk
    rw [List.mem_singleton] at hk
    rw [hk]
    show (-60 : ℝ) ≤ -50
    norm_num
  have c1 := C69_first txs [exA 2000] _ _ _ (by norm_num) n1
  obtain ⟨t, r, ts, m1, m2⟩ := (calculate_cases txs (NearestTx.init txs) rfl [exA 2000]).2 (by
    obtain ⟨b, m, a, h, -⟩ := n1; rw [h]; simp)
  have c2 : calculatePosition (calculatePosition (NearestTx.init txs) [exA 2000]).2 [exC 4000, exA 2000] =
      ((calculatePosition (NearestTx.init txs) [exA 2000]).1, (calculatePosition (NearestTx.init txs) [exA 2000]).2) := by
    obtain ⟨t', r', ts', k1, k2⟩ := (calculate_cases txs (calculatePosition (NearestTx.init txs) [exA 2000]).2 (by
      rw [calculatePosition_txs]; rfl) [exC 4000, exA 2000]).2 (by
      obtain ⟨b, m, a, h, -⟩ := n2; rw [h]; simp)
    obtain ⟨e1, e2, e3⟩ := nearest_unique k1 n2
    subst e1 e2 e3
    have hpos : (calculatePosition (NearestTx.init txs) [exA 2000]).2.smoother.position =
        (calculatePosition (NearestTx.init txs) [exA 2000]).1 := by
      rw [m2]
      exact (smoothPosition_kept _ _).1
    have hsm : ∀ (sm : Smoother) (p : SPos), p.ts ≤ sm.position.ts → smoothPosition sm p = (sm.position, sm) := by
      intro sm p h
      unfold smoothPosition
      rw [if_neg (by omega)]
    rw [k2, hsm _ _ (by rw [hpos, c1]; exact le_refl _), hpos]
  refine ⟨⟨2000, 0, 0, Real.sqrt (Real.exp ((-82 - -60) / 3)) + 1⟩, ?_, rfl, rfl⟩
  simp only [List.foldl_cons, List.foldl_nil, mainStep_eq]
  rw [c2, c1]
  simp [lineOf]

end Verif.Standalone
