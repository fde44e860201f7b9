import Verif.Nan.RadioSpec
import Verif.Nan.Props
import Mathlib.Data.List.TakeWhile

/-!
# C150: radio readings that are not numbers
-/

namespace Verif.Nan.Rd

variable {α : Type} {A : Arithmetic α}

/-- **C150.** Where strengths are used, a message whose strength is not a number is as if it had not been sent. -/
theorem C150_refused (hA : Propagates A) (exp : α → α) (c : Config α) (hc : c.rssiMode = true) (es : List (Event α)) :
    ∀ b, run A exp c b es = run A exp c b (open Classical in es.filter fun e => ¬ NoStrength A e) := by
  classical
  induction es with
  | nil => intro b; rfl
  | cons e es ih =>
    intro b
    cases e with
    | takeOut t =>
      rw [List.filter_cons_of_pos (by simp [NoStrength])]
      rw [run, run, ih]
    | message m =>
      by_cases hm : A.nan m.data.rssi
      · rw [List.filter_cons_of_neg (by rw [decide_eq_true_eq]; exact fun h => h hm), run, ← ih]
        have hn : ¬ Takes A c m.data := by
          rintro ⟨-, -, h, -⟩
          exact h ⟨hc, fun hv => hA.lt _ _ (Or.inl hm) hv.1⟩
        unfold hear
        rw [if_neg hn]
      · rw [List.filter_cons_of_pos (by rw [decide_eq_true_eq]; exact hm), run, run, ih]

/-- **C150, distances.** Where distances are used, the strength of a message and its distance are not looked at: it is taken if it is the
distance of a transmitter to use. -/
theorem C150_taken (c : Config α) (hc : c.rssiMode = false) (e : Entry α) :
    Takes A c e ↔ c.valid e.id = true ∧ e.type = .WIFI_RTT ∧ c.supported e.type = true := by
  unfold Takes
  rw [hc]
  simp

/-! ## The mean -/

theorem sum_bad (hA : Propagates A) (f : Heard α → α) (l : List (Heard α)) : ∀ s, (A.nan s ∨ ∃ m ∈ l, A.nan (f m)) →
    A.nan (l.foldl (fun s m => A.add s (f m)) s) := by
  induction l with
  | nil => intro s h; simpa using h
  | cons x l ih =>
    intro s h
    rw [List.foldl_cons]
    apply ih
    rcases h with h | ⟨m, hm, h⟩
    · exact Or.inl (hA.add _ _ (Or.inl h))
    · rcases List.mem_cons.mp hm with rfl | hm
      · exact Or.inl (hA.add _ _ (Or.inr h))
      · exact Or.inr ⟨m, hm, h⟩

theorem averages_cons (x : Heard α) (xs : List (Heard α)) : averages A (x :: xs) =
    average A x (x :: xs.takeWhile (fun m => !decide (x.data.id < m.data.id))) ::
      averages A (xs.dropWhile (fun m => !decide (x.data.id < m.data.id))) := by
  rw [averages]

/-- Sorted by transmitter. -/
def Sorted (l : List (Heard α)) : Prop := l.Pairwise fun a b => ¬ b.data.id < a.data.id

theorem group_id {x : Heard α} {xs : List (Heard α)} (h : Sorted (x :: xs)) {m : Heard α}
    (hm : m ∈ xs.takeWhile (fun m => !decide (x.data.id < m.data.id))) : m.data.id = x.data.id := by
  have h1 := List.mem_takeWhile_imp hm
  have h2 := (List.pairwise_cons.mp h).1 m (List.takeWhile_subset _ hm)
  simp only [Bool.not_eq_true', decide_eq_false_iff_not] at h1
  exact le_antisymm (not_lt.mp h1) (not_lt.mp h2)

theorem rest_id {x : Heard α} {xs : List (Heard α)} (h : Sorted (x :: xs)) {m : Heard α}
    (hm : m ∈ xs.dropWhile (fun m => !decide (x.data.id < m.data.id))) : x.data.id < m.data.id := by
  induction xs with
  | nil => simp at hm
  | cons y ys ih =>
    by_cases hy : x.data.id < y.data.id
    · rw [List.dropWhile_cons_of_neg (by simpa using hy)] at hm
      rcases List.mem_cons.mp hm with rfl | hm
      · exact hy
      · have h2 := (List.pairwise_cons.mp (List.pairwise_cons.mp h).2).1 m hm
        exact lt_of_lt_of_le hy (not_lt.mp h2)
    · rw [List.dropWhile_cons_of_pos (by simpa using hy)] at hm
      apply ih _ hm
      have h1 := List.pairwise_cons.mp h
      exact List.pairwise_cons.mpr ⟨fun a ha => h1.1 a (List.mem_cons_of_mem _ ha), (List.pairwise_cons.mp h1.2).2⟩

theorem sorted_rest {x : Heard α} {xs : List (Heard α)} (h : Sorted (x :: xs)) (p : Heard α → Bool) : Sorted (xs.dropWhile p) :=
  ((List.pairwise_cons.mp h).2).sublist (List.dropWhile_sublist _)

/-- Every message is in the mean of its transmitter. -/
theorem averages_bad (hA : Propagates A) (n : ℕ) : ∀ (l : List (Heard α)), l.length ≤ n → Sorted l → ∀ m ∈ l, A.nan m.data.distance →
    ∃ e ∈ averages A l, e.id = m.data.id ∧ A.nan e.distance := by
  induction n with
  | zero => intro l hl _ m hm; rw [List.length_eq_zero_iff.mp (Nat.le_zero.mp hl)] at hm; simp at hm
  | succ n ih =>
    intro l hl hs m hm hb
    cases l with
    | nil => simp at hm
    | cons x xs =>
      rw [averages_cons]
      have hsplit : m ∈ x :: xs.takeWhile (fun m => !decide (x.data.id < m.data.id)) ∨
          m ∈ xs.dropWhile (fun m => !decide (x.data.id < m.data.id)) := by
        rcases List.mem_cons.mp hm with rfl | hm
        · exact Or.inl (by simp)
        · rw [← List.takeWhile_append_dropWhile (p := fun m => !decide (x.data.id < m.data.id)) (l := xs)] at hm
          rcases List.mem_append.mp hm with hm | hm
          · exact Or.inl (List.mem_cons_of_mem _ hm)
          · exact Or.inr hm
      rcases hsplit with h | h
      · refine ⟨_, List.mem_cons_self, ?_, ?_⟩
        · show x.data.id = m.data.id
          rcases List.mem_cons.mp h with rfl | h
          · rfl
          · exact (group_id hs h).symm
        · exact hA.div _ _ (Or.inl (sum_bad hA (fun m => m.data.distance) _ _ (Or.inr ⟨m, h, hb⟩)))
      · obtain ⟨e, h1, h2⟩ := ih _ (by
          have := (List.dropWhile_suffix (l := xs) (fun m => !decide (x.data.id < m.data.id))).length_le
          simp only [List.length_cons] at hl
          omega) (sorted_rest hs _) m h hb
        exact ⟨e, List.mem_cons_of_mem _ h1, h2⟩

/-! ## A bad distance -/

/-- Only distances are in the buffer, and one that is not a number of the transmitter `id` at the time `ts`. -/
structure Poisoned (A : Arithmetic α) (b : Buffer α) (id : String) (ts : Int) : Prop where
  rtt : ∀ m ∈ b.measurements, m.data.type = .WIFI_RTT
  bad : ∃ m ∈ b.measurements, m.data.id = id ∧ m.ts = ts ∧ A.nan m.data.distance

theorem average_type (x : Heard α) (l : List (Heard α)) : (average A x l).type = x.data.type := rfl

theorem averages_type (n : ℕ) : ∀ (l : List (Heard α)), l.length ≤ n → (∀ m ∈ l, m.data.type = .WIFI_RTT) →
    ∀ e ∈ averages A l, e.type = .WIFI_RTT := by
  induction n with
  | zero =>
    intro l hl _ e he
    rw [List.length_eq_zero_iff.mp (Nat.le_zero.mp hl), averages] at he
    simp at he
  | succ n ih =>
    intro l hl h e he
    cases l with
    | nil => rw [averages] at he; simp at he
    | cons x xs =>
      rw [averages_cons] at he
      rcases List.mem_cons.mp he with rfl | he
      · exact h x (by simp)
      · refine ih _ ?_ (fun m hm => h m (List.mem_cons_of_mem _ ((List.dropWhile_sublist _).subset hm))) e he
        have := (List.dropWhile_suffix (l := xs) (fun m => !decide (x.data.id < m.data.id))).length_le
        simp only [List.length_cons] at hl
        omega

/-- The two sorts do what `std::sort` does. -/
structure Lawful (c : Config α) : Prop where
  byId : SortsBy (fun a b : Heard α => a.data.id < b.data.id) c.byId
  byTs : SortsBy (fun a b : Heard α => a.ts < b.ts) c.byTs

theorem mem_kept {p : Heard α → Bool} {m : Heard α} (hp : p m = false) : ∀ {l : List (Heard α)}, m ∈ l → m ∈ l.dropWhile p := by
  intro l
  induction l with
  | nil => simp
  | cons x l ih =>
    intro hm
    by_cases hx : p x = true
    · rw [List.dropWhile_cons_of_pos hx]
      rcases List.mem_cons.mp hm with rfl | hm
      · rw [hp] at hx
        exact absurd hx (by decide)
      · exact ih hm
    · rw [List.dropWhile_cons_of_neg hx]
      exact hm

theorem extract_poisoned (hA : Propagates A) (exp : α → α) (c : Config α) (hl : Lawful c) (hk : c.buffer.keepMs ≠ 0) (b : Buffer α)
    (id : String) (ts t : Int) (h : Poisoned A b id ts) (hts : b.currentTs ≤ ts + c.buffer.keepMs) :
    ((extract A c b t).1.map (withDistance A exp c) = [] ∨
      ∃ e ∈ (extract A c b t).1.map (withDistance A exp c), e.id = id ∧ A.nan e.distance) ∧
    Poisoned A (extract A c b t).2 id ts ∧ (extract A c b t).2.currentTs = b.currentTs := by
  unfold extract
  dsimp only
  have e1 : (if t > 0 then { b with lastStepTs := t } else b).currentTs = b.currentTs := by split_ifs <;> rfl
  have e2 : Poisoned A (if t > 0 then { b with lastStepTs := t } else b) id ts := by
    split_ifs
    · exact ⟨h.rtt, h.bad⟩
    · exact h
  generalize (if t > 0 then { b with lastStepTs := t } else b) = b1 at e1 e2 ⊢
  by_cases hw : b1.currentTs - b1.lastExtractionTs < c.buffer.shiftMs
  · rw [if_pos hw]
    exact ⟨Or.inl rfl, e2, e1⟩
  · rw [if_neg hw]
    have hperm := hl.byId.perm b1.measurements
    have hr : ∀ m ∈ c.byId b1.measurements, m.data.type = .WIFI_RTT := fun m hm => e2.rtt m (hperm.mem_iff.mp hm)
    obtain ⟨m, hm, m1, m2, m3⟩ := e2.bad
    have hm' := hperm.mem_iff.mpr hm
    have hout : ∃ e ∈ (averages A (c.byId b1.measurements)).map (withDistance A exp c), e.id = id ∧ A.nan e.distance := by
      obtain ⟨e, he, h1, h2⟩ := averages_bad hA _ _ le_rfl (hl.byId.sorted b1.measurements) m hm' m3
      refine ⟨_, List.mem_map_of_mem he, ?_⟩
      have ht := averages_type _ _ le_rfl hr e he
      unfold withDistance
      rw [if_neg (not_not.mpr ht)]
      exact ⟨h1.trans m1, hA.sub _ _ (Or.inl h2)⟩
    split_ifs with h1 h2
    · exact ⟨Or.inr hout, ⟨hr, m, hm', m1, m2, m3⟩, e1⟩
    · refine ⟨Or.inr hout, ⟨fun m hm => hr m ((hl.byTs.perm _).mem_iff.mp ((List.dropWhile_sublist _).subset hm)), m, ?_, m1, m2, m3⟩, e1⟩
      apply mem_kept _ ((hl.byTs.perm _).mem_iff.mpr hm')
      simp only [Bool.not_eq_false', decide_eq_true_eq]
      omega

theorem add_poisoned (c : Config α) (b : Buffer α) (m : Heard α) (hm : m.data.type = .WIFI_RTT) (id : String) (ts : Int)
    (h : Poisoned A b id ts) : Poisoned A (add A c b m) id ts ∧ (add A c b m).currentTs = m.ts := by
  have e : (add A c b m).measurements = b.measurements ++
      [{ m with data := { m.data with rssi := A.add m.data.rssi (A.lit c.buffer.bias) } }] := by
    unfold add
    dsimp only
    split_ifs <;> rfl
  refine ⟨⟨?_, ?_⟩, rfl⟩
  · rw [e]
    intro m' hm'
    rcases List.mem_append.mp hm' with hm' | hm'
    · exact h.rtt m' hm'
    · rw [List.mem_singleton.mp hm']
      exact hm
  · rw [e]
    obtain ⟨m', h1, h2⟩ := h.bad
    exact ⟨m', List.mem_append.mpr (Or.inl h1), h2⟩

theorem run_poisoned (hA : Propagates A) (exp : α → α) (c : Config α) (hc : c.rssiMode = false) (hl : Lawful c)
    (hk : c.buffer.keepMs ≠ 0) (id : String) (ts : Int) (es : List (Event α)) : ∀ (b : Buffer α), Poisoned A b id ts →
      b.currentTs ≤ ts + c.buffer.keepMs → (∀ m, Event.message m ∈ es → m.ts ≤ ts + c.buffer.keepMs) →
      ∀ out ∈ (run A exp c b es).1, out = [] ∨ ∃ e ∈ out, e.id = id ∧ A.nan e.distance := by
  induction es with
  | nil => intro b _ _ _ out ho; simp [run] at ho
  | cons e es ih =>
    intro b hb hts hes out ho
    cases e with
    | message m =>
      rw [run] at ho
      have hrest : ∀ m', Event.message m' ∈ es → m'.ts ≤ ts + c.buffer.keepMs := fun m' h => hes m' (List.mem_cons_of_mem _ h)
      unfold hear at ho
      split_ifs at ho with ht
      · have hrtt := ((C150_taken c hc m.data).mp ht).2.1
        obtain ⟨k1, k2⟩ := add_poisoned c b m hrtt id ts hb
        exact ih _ k1 (by rw [k2]; exact hes m (by simp)) hrest out ho
      · exact ih b hb hts hrest out ho
    | takeOut t =>
      obtain ⟨k1, k2, k3⟩ := extract_poisoned hA exp c hl hk b id ts t hb hts
      rw [run] at ho
      dsimp only at ho
      rcases List.mem_cons.mp ho with rfl | ho
      · exact k1
      · exact ih _ k2 (by rw [k3]; exact hts) (fun m' h => hes m' (List.mem_cons_of_mem _ h)) out ho

/-- Where distances are used, only distances are buffered. -/
theorem rtt_only (exp : α → α) (c : Config α) (hc : c.rssiMode = false) (hl : Lawful c) (es : List (Event α)) : ∀ (b : Buffer α),
    (∀ m ∈ b.measurements, m.data.type = .WIFI_RTT) → ∀ m ∈ (run A exp c b es).2.measurements, m.data.type = .WIFI_RTT := by
  induction es with
  | nil => intro b h; exact h
  | cons e es ih =>
    intro b h
    cases e with
    | message m =>
      rw [run]
      apply ih
      unfold hear
      split_ifs with ht
      · have hrtt := ((C150_taken c hc m.data).mp ht).2.1
        intro m' hm'
        have e : (add A c b m).measurements = b.measurements ++
            [{ m with data := { m.data with rssi := A.add m.data.rssi (A.lit c.buffer.bias) } }] := by
          unfold add
          dsimp only
          split_ifs <;> rfl
        rw [e] at hm'
        rcases List.mem_append.mp hm' with hm' | hm'
        · exact h m' hm'
        · rw [List.mem_singleton.mp hm']
          exact hrtt
      · exact h
    | takeOut t =>
      rw [run]
      apply ih
      unfold extract
      dsimp only
      have e2 : ∀ m ∈ (if t > 0 then { b with lastStepTs := t } else b).measurements, m.data.type = .WIFI_RTT := by
        split_ifs
        · exact h
        · exact h
      generalize (if t > 0 then { b with lastStepTs := t } else b) = b1 at e2 ⊢
      have hr : ∀ m ∈ c.byId b1.measurements, m.data.type = .WIFI_RTT := fun m hm => e2 m ((hl.byId.perm _).mem_iff.mp hm)
      split_ifs
      · exact e2
      · exact hr
      · intro m hm
        simp at hm
      · intro m hm
        exact hr m ((hl.byTs.perm _).mem_iff.mp ((List.dropWhile_sublist _).subset hm))

/-- **C150, the poison.** Where distances are used and messages are kept between the measurements: one distance of a transmitter to use
that is not a number makes the mean of this transmitter no number in all measurements taken out as long as no message is newer than it by
more than the time messages are kept - whatever came before and whatever good distances of the transmitter come meanwhile. -/
theorem C150_poison (hA : Propagates A) (exp : α → α) (c : Config α) (hc : c.rssiMode = false) (hl : Lawful c)
    (hk : 0 < c.buffer.keepMs) (before : List (Event α)) (m : Heard α) (h1 : c.valid m.data.id = true) (h2 : m.data.type = .WIFI_RTT)
    (h3 : c.supported .WIFI_RTT = true) (hbad : A.nan m.data.distance) (es : List (Event α))
    (hes : ∀ m', Event.message m' ∈ es → m'.ts ≤ m.ts + c.buffer.keepMs) :
    ∀ out ∈ (run A exp c (run A exp c init (before ++ [.message m])).2 es).1, out = [] ∨
      ∃ e ∈ out, e.id = m.data.id ∧ A.nan e.distance := by
  have happ : ∀ (l : List (Event α)) (b : Buffer α), (run A exp c b (l ++ [.message m])).2 = hear A c (run A exp c b l).2 m := by
    intro l
    induction l with
    | nil => intro b; rfl
    | cons e l ih =>
      intro b
      cases e with
      | message m' => rw [List.cons_append, run, run, ih]
      | takeOut t => rw [List.cons_append, run, run]; dsimp only; rw [ih]
  rw [happ]
  have htake : Takes A c m.data := (C150_taken c hc m.data).mpr ⟨h1, h2, h2 ▸ h3⟩
  have hrtt := rtt_only (A := A) exp c hc hl before init (by intro m hm; simp [init] at hm)
  generalize (run A exp c init before).2 = b at hrtt ⊢
  unfold hear
  rw [if_pos htake]
  have e : (add A c b m).measurements = b.measurements ++
      [{ m with data := { m.data with rssi := A.add m.data.rssi (A.lit c.buffer.bias) } }] := by
    unfold add
    dsimp only
    split_ifs <;> rfl
  apply run_poisoned hA exp c hc hl hk.ne' m.data.id m.ts es
  · refine ⟨?_, ?_⟩
    · rw [e]
      intro m' hm'
      rcases List.mem_append.mp hm' with hm' | hm'
      · exact hrtt m' hm'
      · rw [List.mem_singleton.mp hm']
        exact h2
    · rw [e]
      exact ⟨_, List.mem_append.mpr (Or.inr (List.mem_singleton.mpr rfl)), rfl, rfl, hbad⟩
  · show m.ts ≤ _
    omega
  · exact hes

/-- **C150, the sorts.** A comparison by a key of which one is not a number and two others differ is no strict weak order: calling
`std::sort` with it is undefined. This is the sort by strength for the closest transmitters (`measurement_preprocessor.cpp` 129-133),
which strengths that are not numbers reach where distances are used, and the sort by distance of the trilateration
(`trilateration.cpp` 18-22). -/
theorem C150_sort (hA : Propagates A) {β : Type} (key : β → α) (l : List β) (a b d : β) (ha : a ∈ l) (hb : b ∈ l) (hd : d ∈ l)
    (hnan : A.nan (key a)) (hlt : A.lt (key b) (key d)) : ¬ Orders (fun p q => A.lt (key p) (key q)) l := fun h =>
  h.weak b hb a ha d hd (hA.lt _ _ (Or.inr hnan)) (hA.lt _ _ (Or.inl hnan)) hlt

example : ¬ Orders (fun p q : Entry (Option ℝ) => Weaker exact p q)
    [⟨.WIFI_RTT, "a", some (-50), some 1⟩, ⟨.WIFI_RTT, "b", none, some 1⟩, ⟨.WIFI_RTT, "c", some (-60), some 1⟩] :=
  C150_sort exact_propagates Entry.rssi _ ⟨.WIFI_RTT, "b", none, some 1⟩ ⟨.WIFI_RTT, "c", some (-60), some 1⟩
    ⟨.WIFI_RTT, "a", some (-50), some 1⟩ (by simp) (by simp) (by simp) rfl (show (-60 : ℝ) < -50 by norm_num)

/-- Numbers are ordered. -/
theorem C150_sort_numbers {β : Type} (key : β → Option ℝ) (l : List β) (h : ∀ a ∈ l, ¬ exact.nan (key a)) :
    Orders (fun p q => exact.lt (key p) (key q)) l := by
  have h' : ∀ a ∈ l, ∃ x : ℝ, key a = some x := fun a ha => Option.ne_none_iff_exists'.mp (h a ha)
  refine ⟨?_, ?_, ?_⟩
  · intro a ha
    obtain ⟨x, hx⟩ := h' a ha
    rw [hx, e_lt]
    exact lt_irrefl x
  · intro a ha b hb c hc
    obtain ⟨x, hx⟩ := h' a ha
    obtain ⟨y, hy⟩ := h' b hb
    obtain ⟨z, hz⟩ := h' c hc
    rw [hx, hy, hz, e_lt, e_lt, e_lt]
    exact lt_trans
  · intro a ha b hb c hc
    obtain ⟨x, hx⟩ := h' a ha
    obtain ⟨y, hy⟩ := h' b hb
    obtain ⟨z, hz⟩ := h' c hc
    rw [hx, hy, hz, e_lt, e_lt, e_lt, not_lt, not_lt, not_lt]
    exact fun h1 h2 => h2.trans h1

/-! ## Exact numbers -/

theorem e_sumOf (f : Heard (Option ℝ) → Option ℝ) (l : List (Heard (Option ℝ))) (h : ∀ m ∈ l, f m ≠ none) : ∀ x : ℝ,
    l.foldl (fun s m => exact.add s (f m)) (some x) ≠ none := by
  induction l with
  | nil => intro x; simp
  | cons m l ih =>
    intro x
    obtain ⟨y, hy⟩ := Option.ne_none_iff_exists'.mp (h m (by simp))
    rw [List.foldl_cons, hy, e_add]
    exact ih (fun m' h' => h m' (List.mem_cons_of_mem _ h')) _

/-- The mean of the messages of a transmitter is a number if they are. -/
theorem averages_good (n : ℕ) : ∀ (l : List (Heard (Option ℝ))), l.length ≤ n → Sorted l → ∀ e ∈ averages exact l,
    (∃ m ∈ l, m.data.id = e.id) ∧
    ((∀ m ∈ l, m.data.id = e.id → m.data.rssi ≠ none) → e.rssi ≠ none) ∧
    ((∀ m ∈ l, m.data.id = e.id → m.data.distance ≠ none) → e.distance ≠ none) := by
  induction n with
  | zero =>
    intro l hl _ e he
    rw [List.length_eq_zero_iff.mp (Nat.le_zero.mp hl), averages] at he
    simp at he
  | succ n ih =>
    intro l hl hs e he
    cases l with
    | nil => rw [averages] at he; simp at he
    | cons x xs =>
      rw [averages_cons] at he
      rcases List.mem_cons.mp he with rfl | he
      · have hmem : ∀ m ∈ x :: xs.takeWhile (fun m => !decide (x.data.id < m.data.id)), m ∈ x :: xs ∧ m.data.id = x.data.id := by
          intro m hm
          rcases List.mem_cons.mp hm with rfl | hm
          · exact ⟨by simp, rfl⟩
          · exact ⟨List.mem_cons_of_mem _ ((List.takeWhile_sublist _).subset hm), group_id hs hm⟩
        have hn : ((x :: xs.takeWhile (fun m => !decide (x.data.id < m.data.id))).length : ℝ) ≠ 0 := by
          rw [List.length_cons]
          exact Nat.cast_ne_zero.mpr (Nat.succ_ne_zero _)
        refine ⟨⟨x, by simp, rfl⟩, fun h => ?_, fun h => ?_⟩
        · obtain ⟨y, hy⟩ := Option.ne_none_iff_exists'.mp (e_sumOf (fun m => m.data.rssi) _ (fun m hm => h m (hmem m hm).1 (hmem m hm).2) 0)
          show exact.div (List.foldl (fun s (m : Heard (Option ℝ)) => exact.add s m.data.rssi) (some 0) _) (some _) ≠ none
          rw [hy, e_div _ hn]
          simp
        · obtain ⟨y, hy⟩ := Option.ne_none_iff_exists'.mp
            (e_sumOf (fun m => m.data.distance) _ (fun m hm => h m (hmem m hm).1 (hmem m hm).2) 0)
          show exact.div (List.foldl (fun s (m : Heard (Option ℝ)) => exact.add s m.data.distance) (some 0) _) (some _) ≠ none
          rw [hy, e_div _ hn]
          simp
      · obtain ⟨⟨m, h1, h2⟩, h3, h4⟩ := ih _ (by
          have := (List.dropWhile_suffix (l := xs) (fun m => !decide (x.data.id < m.data.id))).length_le
          simp only [List.length_cons] at hl
          omega) (sorted_rest hs _) e he
        have hsub : ∀ m ∈ xs.dropWhile (fun m => !decide (x.data.id < m.data.id)), m ∈ x :: xs := fun m hm =>
          List.mem_cons_of_mem _ ((List.dropWhile_sublist _).subset hm)
        exact ⟨⟨m, hsub m h1, h2⟩, fun h => h3 fun m hm => h m (hsub m hm), fun h => h4 fun m hm => h m (hsub m hm)⟩

/-- **C150, only this transmitter.** In exact numbers: of the measurements taken out, the mean distance of a transmitter is no number
exactly if one of its buffered distances is none. -/
theorem C150_only (c : Config (Option ℝ)) (hl : Lawful c) (b : Buffer (Option ℝ)) (t : Int) :
    ∀ e ∈ (extract exact c b t).1, e.distance = none ↔ ∃ m ∈ b.measurements, m.data.id = e.id ∧ m.data.distance = none := by
  have hm1 : (if t > 0 then { b with lastStepTs := t } else b).measurements = b.measurements := by split_ifs <;> rfl
  intro e he
  have he' : e ∈ averages exact (c.byId b.measurements) := by
    unfold extract at he
    dsimp only at he
    rw [hm1] at he
    generalize (if t > 0 then { b with lastStepTs := t } else b) = b1 at he
    split_ifs at he
    · simp at he
    · exact he
    · exact he
    · exact he
  have hperm := hl.byId.perm b.measurements
  have hs : Sorted (c.byId b.measurements) := hl.byId.sorted b.measurements
  obtain ⟨-, -, h3⟩ := averages_good _ _ le_rfl hs e he'
  constructor
  · intro h
    by_contra hc
    push Not at hc
    exact h3 (fun m hm hid => hc m (hperm.mem_iff.mp hm) hid) h
  · rintro ⟨m, h1, h2, h4⟩
    obtain ⟨e', k1, k2, k3⟩ := averages_bad exact_propagates _ _ le_rfl hs m (hperm.mem_iff.mpr h1) h4
    have huniq : ∀ (n : ℕ) (l : List (Heard (Option ℝ))), l.length ≤ n → Sorted l → ∀ a ∈ averages exact l, ∀ a' ∈ averages exact l,
        a.id = a'.id → a = a' := by
      intro n
      induction n with
      | zero =>
        intro l hl' _ a ha
        rw [List.length_eq_zero_iff.mp (Nat.le_zero.mp hl'), averages] at ha
        simp at ha
      | succ n ih =>
        intro l hl' hs' a ha a' ha' haa
        cases l with
        | nil => rw [averages] at ha; simp at ha
        | cons x xs =>
          have hlen : (xs.dropWhile (fun m => !decide (x.data.id < m.data.id))).length ≤ n := by
            have := (List.dropWhile_suffix (l := xs) (fun m => !decide (x.data.id < m.data.id))).length_le
            simp only [List.length_cons] at hl'
            omega
          have hne : ∀ a ∈ averages exact (xs.dropWhile (fun m => !decide (x.data.id < m.data.id))), a.id ≠ x.data.id := by
            intro a ha hid
            obtain ⟨⟨m, h1, h2⟩, -⟩ := averages_good _ _ le_rfl (sorted_rest hs' _) a ha
            have := rest_id hs' h1
            rw [h2, hid] at this
            exact lt_irrefl _ this
          rw [averages_cons] at ha ha'
          rcases List.mem_cons.mp ha with rfl | ha <;> rcases List.mem_cons.mp ha' with rfl | ha'
          · rfl
          · exact absurd haa.symm (hne a' ha')
          · exact absurd haa (hne a ha)
          · exact ih _ hlen (sorted_rest hs' _) a ha a' ha' haa
    rw [huniq _ _ le_rfl hs e he' e' k1 (h2.symm.trans k2.symm)]
    exact k3

/-! ## An example -/

/-- Distances are used, averaged over three seconds and taken out every second. -/
noncomputable def exC : Config (Option ℝ) where
  valid _ := true
  supported _ := true
  rssiMode := false
  cutOff := some (-100)
  rttOffset := some 1
  pathloss _ := none
  buffer := ⟨2000, 1000, 3000, 0, false⟩
  byId := List.insertionSort fun a b => a.data.id ≤ b.data.id
  byTs := List.insertionSort fun a b => a.ts ≤ b.ts

theorem exC_lawful : Lawful exC := ⟨sortsBy_insertionSort fun a : Heard (Option ℝ) => a.data.id, sortsBy_insertionSort fun a : Heard (Option ℝ) => a.ts⟩

/-- A distance of a transmitter. -/
def at_ (d : Option ℝ) (ts : Int) : Heard (Option ℝ) := ⟨⟨.WIFI_RTT, "a", some (-50), d⟩, ts⟩

theorem ex_out (d : Option ℝ) : (run exact (Option.map Real.exp) exC init [.message (at_ d 1000), .message (at_ (some 5) 2000), .takeOut 0]).1 =
    [[⟨.WIFI_RTT, "a", some (-50), exact.sub (exact.div (exact.add (exact.add (some 0) d) (some 5)) (some 2)) (some 1)⟩]] := by
  have ht : ∀ e : Entry (Option ℝ), e.type = .WIFI_RTT → Takes exact exC e := fun e he => (C150_taken exC rfl e).mpr ⟨rfl, he, rfl⟩
  have h1 : hear exact exC init (at_ d 1000) = ⟨1000, 1000, 0, [at_ d 1000]⟩ := by
    unfold hear
    rw [if_pos (ht _ rfl)]
    simp [add, init, at_, exC]
  have h2 : hear exact exC ⟨1000, 1000, 0, [at_ d 1000]⟩ (at_ (some 5) 2000) = ⟨1000, 2000, 0, [at_ d 1000, at_ (some 5) 2000]⟩ := by
    unfold hear
    rw [if_pos (ht _ rfl)]
    simp [add, at_, exC]
  have h3 : exC.byId [at_ d 1000, at_ (some 5) 2000] = [at_ d 1000, at_ (some 5) 2000] := by
    simp [exC, at_]
  have h4 : averages exact [at_ d 1000, at_ (some 5) 2000] =
      [⟨.WIFI_RTT, "a", some (-50), exact.div (exact.add (exact.add (some 0) d) (some 5)) (some 2)⟩] := by
    have e2 : exact.div (some (0 + -50 + -50)) (some 2) = some (-50) := by
      rw [e_div _ (by norm_num)]
      norm_num
    rw [averages_cons]
    have hlt : (!decide ((at_ d 1000).data.id < (at_ (some 5) 2000).data.id)) = true := by
      rw [Bool.not_eq_true', decide_eq_false_iff_not]
      exact lt_irrefl ("a" : String)
    have e1 : (List.takeWhile (fun m => !decide ((at_ d 1000).data.id < m.data.id)) [at_ (some 5) 2000]) = [at_ (some 5) 2000] := by
      rw [List.takeWhile_cons, if_pos hlt, List.takeWhile_nil]
    have e3 : (List.dropWhile (fun m => !decide ((at_ d 1000).data.id < m.data.id)) [at_ (some 5) 2000]) = [] := by
      rw [List.dropWhile_cons, if_pos hlt, List.dropWhile_nil]
    rw [e1, e3, averages]
    unfold average
    simp only [List.length_cons, List.length_nil, List.foldl_cons, List.foldl_nil, at_, e_lit, e_add]
    norm_num
    norm_num at e2
    exact e2
  have h5 : (extract exact exC ⟨1000, 2000, 0, [at_ d 1000, at_ (some 5) 2000]⟩ 0).1 = averages exact [at_ d 1000, at_ (some 5) 2000] := by
    unfold extract
    dsimp only
    rw [if_neg (lt_irrefl (0 : Int)), h3, if_neg (show ¬ ((2000 : Int) - 1000 < exC.buffer.shiftMs) by simp [exC])]
    split_ifs <;> rfl
  rw [run, run, run, run, h1, h2]
  dsimp only
  rw [h5, h4]
  rfl

/-- **C150, an example.** Two distances of a transmitter in two seconds: with numbers their mean is taken out, corrected by the offset; with
one that is not a number there is no mean. -/
theorem C150_example :
    (run exact (Option.map Real.exp) exC init [.message (at_ (some 3) 1000), .message (at_ (some 5) 2000), .takeOut 0]).1 =
      [[⟨.WIFI_RTT, "a", some (-50), some 3⟩]] ∧
    (run exact (Option.map Real.exp) exC init [.message (at_ none 1000), .message (at_ (some 5) 2000), .takeOut 0]).1 =
      [[⟨.WIFI_RTT, "a", some (-50), none⟩]] := by
  refine ⟨?_, ?_⟩
  · rw [ex_out, e_add, e_add, e_div _ (by norm_num), e_sub]
    norm_num
  · rw [ex_out]
    rfl

example : ∀ out ∈ (run exact (Option.map Real.exp) exC (run exact (Option.map Real.exp) exC init ([] ++ [.message (at_ none 1000)])).2
    [.message (at_ (some 5) 2000), .takeOut 0]).1, out = [] ∨ ∃ e ∈ out, e.id = "a" ∧ exact.nan e.distance :=
  C150_poison exact_propagates _ exC rfl exC_lawful (by simp [exC]) [] (at_ none 1000) rfl rfl rfl rfl _ (by
    intro m' hm'
    simp only [List.mem_cons, Event.message.injEq, reduceCtorEq, List.not_mem_nil, or_false] at hm'
    rw [hm']
    simp [at_, exC])

/-! ## The preprocessor of the other claims -/

/-- A message of numbers. -/
def ofData (d : RadioData) : Entry (Option ℝ) := ⟨d.type, d.id, some d.rssi, some d.distance⟩

/-- With its time. -/
def ofHeard (m : RadioMeasurement) : Heard (Option ℝ) := ⟨ofData m.data, m.ts⟩

/-- A buffer of numbers. -/
def ofBuffer (b : Radio.BufferState) : Buffer (Option ℝ) := ⟨b.lastExtractionTs, b.currentTs, b.lastStepTs, b.measurements.map ofHeard⟩

/-- The path-loss model of a transmitter that is found on its level. -/
def pathlossOf (cfg : Radio.Cfg) (id : String) : Option (Option ℝ × Option ℝ) :=
  match Levels.findLevelByTransmitterId cfg.levelIndex id with
  | none => none
  | some levelId =>
    match Levels.level cfg.levelIndex levelId with
    | none => none
    | some l =>
      match l.transmitter id with
      | none => none
      | some t => some (some t.pathloss.A, some t.pathloss.B)

/-- The constants as those of this model. -/
noncomputable def ofCfg (cfg : Radio.Cfg) (byId byTs : List (Heard (Option ℝ)) → List (Heard (Option ℝ))) : Config (Option ℝ) where
  valid id := cfg.useUnknownTxs || ((Levels.findLevelByTransmitterId cfg.levelIndex id).isSome && Radio.isTransmitterSupported cfg id)
  supported := Radio.isSignalTypeSupported cfg
  rssiMode := decide (cfg.measurementType = .RSSI)
  cutOff := some cfg.cutOffRssi
  rttOffset := some cfg.wiFiRttOffset
  pathloss := pathlossOf cfg
  buffer := cfg.buffer
  byId := byId
  byTs := byTs

theorem e_takes (cfg : Radio.Cfg) (byId byTs : List (Heard (Option ℝ)) → List (Heard (Option ℝ))) (d : RadioData) :
    Radio.getValidSignalEntry cfg d = open Classical in if Takes exact (ofCfg cfg byId byTs) (ofData d) then some d else none := by
  have hv : RssiValid exact (ofCfg cfg byId byTs) (ofData d).rssi ↔ Radio.isRssiValid cfg d.rssi = true := by
    unfold RssiValid Radio.isRssiValid
    rw [Bool.and_eq_true, decide_eq_true_eq, decide_eq_true_eq]
    exact Iff.rfl
  have ht : Takes exact (ofCfg cfg byId byTs) (ofData d) ↔
      ((cfg.useUnknownTxs || ((Levels.findLevelByTransmitterId cfg.levelIndex d.id).isSome && Radio.isTransmitterSupported cfg d.id)) = true ∧
        ¬ (cfg.measurementType ≠ .RSSI ∧ d.type ≠ .WIFI_RTT) ∧ ¬ (cfg.measurementType = .RSSI ∧ Radio.isRssiValid cfg d.rssi = false) ∧
        Radio.isSignalTypeSupported cfg d.type = true) := by
    unfold Takes
    rw [hv]
    simp only [ofCfg, ofData, decide_eq_false_iff_not, decide_eq_true_eq, Bool.not_eq_true, ne_eq]
  unfold Radio.getValidSignalEntry
  dsimp only
  by_cases h1 : cfg.measurementType ≠ .RSSI ∧ d.type ≠ .WIFI_RTT
  · have h2 : ¬ (cfg.measurementType = .RSSI ∧ Radio.isRssiValid cfg d.rssi = false) := fun h => h1.1 h.1
    rw [if_neg (fun h => (ht.mp h).2.1 h1), if_neg h2, if_pos h1]
    simp
  · rw [if_neg h1]
    by_cases h2 : cfg.measurementType = .RSSI ∧ Radio.isRssiValid cfg d.rssi = false
    · rw [if_neg (fun h => (ht.mp h).2.2.1 h2), if_pos h2]
      simp
    · rw [if_neg h2]
      by_cases h3 : Takes exact (ofCfg cfg byId byTs) (ofData d)
      · rw [if_pos h3, if_pos]
        rw [Bool.and_eq_true]
        exact ⟨(ht.mp h3).1, (ht.mp h3).2.2.2⟩
      · rw [if_neg h3, if_neg]
        intro h4
        rw [Bool.and_eq_true] at h4
        exact h3 (ht.mpr ⟨h4.1, h1, h2, h4.2⟩)

theorem e_foldl (f : RadioMeasurement → ℝ) (g : Heard (Option ℝ) → Option ℝ) (h : ∀ m, g (ofHeard m) = some (f m))
    (l : List RadioMeasurement) : ∀ x : ℝ, (l.map ofHeard).foldl (fun s m => exact.add s (g m)) (some x) =
      some (l.foldl (fun s m => s + f m) x) := by
  induction l with
  | nil => intro x; rfl
  | cons m l ih =>
    intro x
    rw [List.map_cons, List.foldl_cons, List.foldl_cons, h, e_add, ih]

theorem e_average (m : RadioMeasurement) (l : List RadioMeasurement) (hl : l ≠ []) :
    average exact (ofHeard m) (l.map ofHeard) = ofData (Radio.averageRange m l) := by
  have hn : (l.length : ℝ) ≠ 0 := Nat.cast_ne_zero.mpr (List.length_eq_zero_iff.not.mpr hl)
  unfold average Radio.averageRange ofData
  dsimp only
  rw [List.length_map, e_lit, e_lit, e_foldl (fun m => m.data.rssi) (fun m => m.data.rssi) (fun _ => rfl),
    e_foldl (fun m => m.data.distance) (fun m => m.data.distance) (fun _ => rfl), e_div _ hn, e_div _ hn, divide_eq hn, divide_eq hn]
  rfl

theorem e_averages (n : ℕ) : ∀ l : List RadioMeasurement, l.length ≤ n →
    averages exact (l.map ofHeard) = (Radio.averageLoop l).map ofData := by
  induction n with
  | zero =>
    intro l hl
    rw [List.length_eq_zero_iff.mp (Nat.le_zero.mp hl), List.map_nil, averages, Radio.averageLoop]
    rfl
  | succ n ih =>
    intro l hl
    cases l with
    | nil => rw [List.map_nil, averages, Radio.averageLoop]; rfl
    | cons x xs =>
      rw [List.map_cons, averages_cons, Radio.averageLoop, List.map_cons, ← ih, ← e_average _ _ (by simp), List.takeWhile_map,
        List.dropWhile_map, List.map_cons]
      · rfl
      · have := (List.dropWhile_suffix (l := xs) (fun m => !decide (x.data.id < m.data.id))).length_le
        simp only [List.length_cons] at hl
        omega

/-- **C150, numbers.** For messages that are numbers this is the preprocessor of the other claims: the messages it takes, what is taken
out of the buffer, and the distances. (The sorts are the same ones, seen in the two models.) -/
theorem C150_numbers (cfg : Radio.Cfg) (s : Radio.Sorts) (byId byTs : List (Heard (Option ℝ)) → List (Heard (Option ℝ)))
    (h1 : ∀ l : List RadioMeasurement, byId (l.map ofHeard) = (s.byId l).map ofHeard)
    (h2 : ∀ l : List RadioMeasurement, byTs (l.map ofHeard) = (s.byTs l).map ofHeard) :
    (∀ (st : Radio.State) (d : RadioData) (ts : Int), hear exact (ofCfg cfg byId byTs) (ofBuffer st.buffer) (ofHeard ⟨d, ts⟩) =
      ofBuffer (Radio.updateMeasurements cfg st ⟨.radio d, ts⟩).buffer) ∧
    (∀ (b : Radio.BufferState) (t : Int), extract exact (ofCfg cfg byId byTs) (ofBuffer b) t =
      ((Radio.extractMeasurements s cfg.buffer b t).1.map ofData, ofBuffer (Radio.extractMeasurements s cfg.buffer b t).2)) ∧
    (∀ d r : RadioData, (∀ a b, pathlossOf cfg d.id = some (a, b) → b ≠ some 0) → Radio.withDistance cfg d = some r →
      withDistance exact (Option.map Real.exp) (ofCfg cfg byId byTs) (ofData d) = ofData r) := by
  refine ⟨?_, ?_, ?_⟩
  · intro st d ts
    unfold hear Radio.updateMeasurements
    dsimp only
    rw [e_takes cfg byId byTs d]
    by_cases ht : Takes exact (ofCfg cfg byId byTs) (ofData d)
    · rw [if_pos ht, if_pos (show Takes exact (ofCfg cfg byId byTs) (ofHeard ⟨d, ts⟩).data from ht)]
      dsimp only
      unfold add Radio.addMeasurement ofBuffer
      dsimp only
      split_ifs
      · simp only [List.map_append, List.map_cons, List.map_nil]
        rfl
      · simp only [List.map_append, List.map_cons, List.map_nil]
        rfl
    · rw [if_neg ht, if_neg (show ¬ Takes exact (ofCfg cfg byId byTs) (ofHeard ⟨d, ts⟩).data from ht)]
  · intro b t
    unfold extract Radio.extractMeasurements
    dsimp only
    have e0 : (if t > 0 then { ofBuffer b with lastStepTs := t } else ofBuffer b) =
        ofBuffer (if t > 0 then { b with lastStepTs := t } else b) := by
      split_ifs <;> rfl
    rw [e0]
    generalize (if t > 0 then { b with lastStepTs := t } else b) = b1
    have e1 : (ofCfg cfg byId byTs).byId (ofBuffer b1).measurements = (s.byId b1.measurements).map ofHeard := h1 _
    have e2 : (ofCfg cfg byId byTs).byTs ((s.byId b1.measurements).map ofHeard) = (s.byTs (s.byId b1.measurements)).map ofHeard := h2 _
    rw [e1, e2, e_averages _ _ le_rfl, List.dropWhile_map]
    have e3 : (ofCfg cfg byId byTs).buffer = cfg.buffer := rfl
    have e4 : (ofBuffer b1).currentTs = b1.currentTs := rfl
    have e5 : (ofBuffer b1).lastExtractionTs = b1.lastExtractionTs := rfl
    have e6 : (ofBuffer b1).lastStepTs = b1.lastStepTs := rfl
    rw [e3, e4, e5, e6]
    split_ifs <;> rfl
  · intro d r hb hr
    unfold Radio.withDistance at hr
    unfold withDistance
    have et : (ofData d).type = d.type := rfl
    rw [et]
    split_ifs at hr ⊢ with ht
    · have ep : (ofCfg cfg byId byTs).pathloss (ofData d).id = pathlossOf cfg d.id := rfl
      rw [ep]
      unfold pathlossOf at hb ⊢
      cases hf : Levels.findLevelByTransmitterId cfg.levelIndex d.id with
      | none =>
        rw [hf] at hr
        simp only [Option.some.injEq] at hr
        rw [← hr]
      | some lid =>
        rw [hf] at hr hb
        dsimp only at hr hb ⊢
        cases hlv : Levels.level cfg.levelIndex lid with
        | none => rw [hlv] at hr; simp at hr
        | some l =>
          rw [hlv] at hr hb
          dsimp only at hr hb ⊢
          cases htx : l.transmitter d.id with
          | none => rw [htx] at hr; simp at hr
          | some tx =>
            rw [htx] at hr hb
            dsimp only at hr hb ⊢
            have hb0 : tx.pathloss.B ≠ 0 := fun h => hb _ _ rfl (by rw [h])
            simp only [Option.some.injEq] at hr
            rw [← hr, divide_eq hb0]
            have e : exact.div (exact.sub (some tx.pathloss.A) (ofData d).rssi) (some tx.pathloss.B) =
              some ((tx.pathloss.A - d.rssi) / tx.pathloss.B) := e_div _ hb0
            rw [e]
            rfl
    · simp only [Option.some.injEq] at hr
      rw [← hr]
      rfl

end Verif.Nan.Rd
